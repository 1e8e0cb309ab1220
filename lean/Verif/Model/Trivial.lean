import Verif.Lib.PyStr
import Verif.Lib.PyList
import Verif.Lib.Exn

/-!
Model of the number list functions of pepclibs/helperlibs/Trivial.py.
-/

namespace Verif.Trivial

open PyStr

/-- The value of a digit of any base up to 36. Only ASCII digits are modelled (Python's `int()` also
accepts other Unicode decimal digits). -/
def digitVal (c : Char) : Option Nat :=
  let n := c.toNat
  if 48 ≤ n ∧ n ≤ 57 then some (n - 48)
  else if 97 ≤ n ∧ n ≤ 122 then some (n - 87)
  else if 65 ≤ n ∧ n ≤ 90 then some (n - 55)
  else none

/-- The digits of a number in base `b`: single underscores are allowed between digits. `acc` is the
value so far, `last` tells whether the previous character was a digit. -/
def parseDigits (b : Nat) : Nat → Bool → PyStr → Option Nat
  | acc, last, [] => if last then some acc else none
  | acc, last, c :: cs =>
    if c = '_' then (if last then parseDigits b acc false cs else none)
    else match digitVal c with
      | some d => if d < b then parseDigits b (acc * b + d) true cs else none
      | none => none

/-- Skip the one underscore allowed after the base prefix. -/
def skipUnderscore : PyStr → PyStr
  | '_' :: cs => cs
  | cs => cs

/-- The unsigned part of `int(s, 0)`: the base comes from the prefix, decimal numbers other than zero
must not start with "0". -/
def parseAuto : PyStr → Option Nat
  | '0' :: 'x' :: cs | '0' :: 'X' :: cs => parseDigits 16 0 false (skipUnderscore cs)
  | '0' :: 'o' :: cs | '0' :: 'O' :: cs => parseDigits 8 0 false (skipUnderscore cs)
  | '0' :: 'b' :: cs | '0' :: 'B' :: cs => parseDigits 2 0 false (skipUnderscore cs)
  | '0' :: cs => match parseDigits 10 0 true cs with
    | some 0 => some 0
    | _ => none
  | cs => parseDigits 10 0 false cs

/-- `str_to_int(s)` with the default base 0. Models: pepclibs/helperlibs/Trivial.py:89-127 (`int(s, 0)`
is modelled after the documented grammar; the limit of 4300 digits of recent Python versions is not
modelled). -/
def strToInt (s : PyStr) : Except Exn Int :=
  let r : Option Int := match strip s with
    | '-' :: cs => (parseAuto cs).map (fun n : Nat => -(n : Int))
    | '+' :: cs => (parseAuto cs).map (fun n : Nat => (n : Int))
    | cs => (parseAuto cs).map (fun n : Nat => (n : Int))
  match r with
  | some v => .ok v
  | none => .error .badFormat

/-- Models: pepclibs/helperlibs/Trivial.py:282-293 `list_dedup()`. -/
def listDedup {α : Type} [DecidableEq α] (elts : List α) : List α := pyDedup elts

/-- Models: pepclibs/helperlibs/Trivial.py:295-321 `split_csv_line()` with a one-character separator
and `keep_empty=False`. -/
def splitCsvLine (line : PyStr) (sep : Char) (dedup : Bool) : List PyStr :=
  let line := stripBy (· == sep) line
  let result := ((splitC sep line).filter (fun v => !v.isEmpty)).map strip
  if dedup then listDedup result else result

/-- `range(a, b + 1)` as a list. -/
def intRange (a b : Int) : List Int :=
  (List.range (b - a + 1).toNat).map (fun i : Nat => a + (i : Int))

/-- One element of the line: a number or a range.
Models: pepclibs/helperlibs/Trivial.py:351-366. -/
def parseElt (val : PyStr) : Except Exn (List Int) :=
  if !val.contains '-' then
    match strToInt val with
    | .error e => .error e
    | .ok v => .ok [v]
  else
    match (splitC '-' val).filter (fun v => !v.isEmpty) with
    | [x, y] =>
      match strToInt x with
      | .error e => .error e
      | .ok a =>
        match strToInt y with
        | .error e => .error e
        | .ok b => if a > b then .error .badFormat else .ok (intRange a b)
    | _ => .error .badFormat

/-- The loop over the elements. Models: pepclibs/helperlibs/Trivial.py:350-368. -/
def parseElts : List PyStr → Except Exn (List Int)
  | [] => .ok []
  | v :: vs =>
    match parseElt v with
    | .error e => .error e
    | .ok l =>
      match parseElts vs with
      | .error e => .error e
      | .ok r => .ok (l ++ r)

/-- Models: pepclibs/helperlibs/Trivial.py:323-368 `split_csv_line_int()` with the default base. -/
def splitCsvLineInt (line : PyStr) (sep : Char) (dedup : Bool) : Except Exn (List Int) :=
  parseElts (splitCsvLine line sep dedup)

/-- Models: pepclibs/helperlibs/Trivial.py:370-397 `parse_int_list()`; the elements of the list are
already converted by `str()`. -/
def parseIntList (nums : List PyStr) (sep : Char) (dedup : Bool) : Except Exn (List Int) :=
  splitCsvLineInt (joinC sep nums) sep dedup

/-- `groupby(enumerate(numbers), lambda x: x[0] - x[1])`: maximal groups of neighbours with equal keys.
`idx` is the index of the first element. -/
def groups : Int → List Int → List (List Int)
  | _, [] => []
  | _, [x] => [[x]]
  | idx, x :: y :: l =>
    if idx - x = (idx + 1) - y then
      match groups (idx + 1) (y :: l) with
      | [] => [[x]]
      | g :: gs => (x :: g) :: gs
    else [x] :: groups (idx + 1) (y :: l)

/-- The strings of one group. Models: pepclibs/helperlibs/Trivial.py:417-423. -/
def groupStrs (nums : List Int) : List PyStr :=
  if nums.length > 2 then
    [PyStr.ofInt (nums.headD 0) ++ '-' :: PyStr.ofInt (nums.getLastD 0)]
  else nums.map PyStr.ofInt

/-- Models: pepclibs/helperlibs/Trivial.py:399-425 `rangify()` for a list of integers. -/
def rangify (numbers : List Int) : PyStr :=
  joinC ',' ((groups 0 (sortBy (fun a b => decide (a ≤ b)) numbers)).flatMap groupStrs)

end Verif.Trivial
