import Verif.Lib.Exn
import Verif.Lib.Dict
import Verif.Lib.PyStr

/-!
Suggesting a similar string. Models: pepclibs/helperlibs/DamerauLevenshtein.py.

`lower` is `str.lower()`, an arbitrary function here. Out of range list accesses are the exception
`IndexError`, so the theorems also show that there are none.
-/

namespace Verif.ClosestMatch

abbrev Matrix := List (List Nat)

/-- `l[i]`. -/
def item {α : Type} (l : List α) (i : Nat) : Except Exn α :=
  match l[i]? with
  | some x => .ok x
  | none => .error .pyIndexError

/-- `matrix[i][j]`. -/
def cell (m : Matrix) (i j : Nat) : Except Exn Nat := do
  let r ← item m i
  item r j

/-- `matrix[i].append(v)`. -/
def append (m : Matrix) (i v : Nat) : Except Exn Matrix := do
  let r ← item m i
  pure (m.set i (r ++ [v]))

/-- `matrix[i][j] = v`. -/
def setCell (m : Matrix) (i j v : Nat) : Except Exn Matrix := do
  let r ← item m i
  let _ ← item r j
  pure (m.set i (r.set j v))

/-- The two comparisons of the transposition condition.
Models: pepclibs/helperlibs/DamerauLevenshtein.py:36-37. -/
def transposed (first second : PyStr) (fdx sdx : Nat) : Except Exn Bool :=
  if fdx > 1 ∧ sdx > 1 then do
    let a ← item first (fdx - 1)
    let b2 ← item second (sdx - 2)
    if a = b2 then do
      let a2 ← item first (fdx - 2)
      let b ← item second (sdx - 1)
      pure (decide (a2 = b))
    else pure false
  else pure false

/-- The body of the inner loop. Models: pepclibs/helperlibs/DamerauLevenshtein.py:29-38. -/
def step (first second : PyStr) (fdx sdx : Nat) (m : Matrix) : Except Exn Matrix := do
  let a ← item first (fdx - 1)
  let b ← item second (sdx - 1)
  let cost := if a = b then 0 else 1
  let del ← cell m (fdx - 1) sdx
  let ins ← cell m fdx (sdx - 1)
  let sub ← cell m (fdx - 1) (sdx - 1)
  let m ← append m fdx (min (del + 1) (min (ins + 1) (sub + cost)))
  if (← transposed first second fdx sdx) then
    let cur ← cell m fdx sdx
    let old ← cell m (fdx - 2) (sdx - 2)
    setCell m fdx sdx (min cur (old + cost))
  else pure m

/-- The inner loop: `k` iterations from `sdx` on.
Models: pepclibs/helperlibs/DamerauLevenshtein.py:28-38. -/
def inner (first second : PyStr) (fdx : Nat) : Nat → Nat → Matrix → Except Exn Matrix
  | _, 0, m => .ok m
  | sdx, k + 1, m => do
    let m ← step first second fdx sdx m
    inner first second fdx (sdx + 1) k m

/-- The outer loop: `k` iterations from `fdx` on.
Models: pepclibs/helperlibs/DamerauLevenshtein.py:27-38. -/
def outer (first second : PyStr) : Nat → Nat → Matrix → Except Exn Matrix
  | _, 0, m => .ok m
  | fdx, k + 1, m => do
    let m ← inner first second fdx 1 second.length m
    outer first second (fdx + 1) k m

/-- Models: pepclibs/helperlibs/DamerauLevenshtein.py:20-40 `osa_distance()`. -/
def osaDistance (first second : PyStr) : Except Exn Nat := do
  let m := ((List.range (first.length + 1)).map fun i => [i]).set 0 (List.range (second.length + 1))
  let m ← outer first second 1 first.length m
  cell m first.length second.length

/-- The dictionary comprehension; `fold` is the identity if the case matters.
Models: pepclibs/helperlibs/DamerauLevenshtein.py:42. -/
def options (fold : PyStr → PyStr) (strings : List PyStr) : Dict PyStr PyStr :=
  strings.foldl (fun d s => d.set (fold s) s) []

/-- The search loop. Models: pepclibs/helperlibs/DamerauLevenshtein.py:46-50. -/
def search (string : PyStr) : List PyStr → Int × Option PyStr → Except Exn (Int × Option PyStr)
  | [], best => .ok best
  | o :: os, best => do
    let score ← osaDistance string o
    search string os (if (score : Int) < best.1 then ((score : Int), some o) else best)

/-- Models: pepclibs/helperlibs/DamerauLevenshtein.py:13-53 `closest_match()`. An empty string is false
in Python. -/
def closestMatch (lower : PyStr → PyStr) (string : PyStr) (strings : List PyStr) (maxDistance : Int)
    (caseSensitive : Bool) : Except Exn (Option PyStr) := do
  let fold := if caseSensitive then id else lower
  let opts := options fold strings
  let best ← search (fold string) opts.keys (maxDistance + 1, none)
  match best.2 with
  | none => pure none
  | some [] => pure none
  | some o =>
    match opts.get? o with
    | some s => pure (some s)
    | none => .error .pyKeyError

end Verif.ClosestMatch
