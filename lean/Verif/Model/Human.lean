import Verif.Lib.Float
import Verif.Lib.PyStr
import Verif.Lib.Exn
import Verif.Model.Trivial
import Verif.Model.EP

/-!
Model of pepclibs/helperlibs/Human.py: values with units (`parse_human()`), numbers with SI prefixes
(`num2si()`) and durations (`duration()`).

Floating point numbers are rational numbers, every operation rounds with the parameter `fl` (see
`Verif.IsRounding`). Infinity and "not a number" are values of their own. The sign of zero is not modelled.
The texts are modelled with ASCII digits.
-/

namespace Verif.Human

open PyStr

/-- A Python `float`. -/
inductive Flt where
  | fin (x : Rat)
  | inf (neg : Bool)
  | nan
deriving DecidableEq, Repr

/-- A Python number, `int` or `float`. -/
inductive Num where
  | int (v : Int)
  | flt (x : Flt)
deriving DecidableEq, Repr

/-- From this number on (2^1024 minus half of the last place) numbers are rounded to infinity. -/
def big : Rat := 2 ^ 1024 - 2 ^ 970

/-- The `float` nearest to `x`. -/
def mkFlt (fl : Rat → Rat) (x : Rat) : Flt :=
  if big ≤ x then .inf false
  else if x ≤ -big then .inf true
  else .fin (fl x)

/-- The conversion of an `int` operand to `float`: `OverflowError` if it does not fit. -/
def ofInt (fl : Rat → Rat) (v : Int) : Except Exn Rat :=
  if big ≤ (v : Rat) ∨ (v : Rat) ≤ -big then .error .pyOverflowError else .ok (fl v)

/-! ### Python's `float(text)` -/

def isDig (c : Char) : Bool := decide (48 ≤ c.toNat) && decide (c.toNat ≤ 57)

/-- Remove the underscores of a number, they are allowed only between digits. `prev` is the previous
character. -/
def dropUnders (prev : Char) : PyStr → Option PyStr
  | [] => if prev = '_' then none else some []
  | c :: cs =>
    if c = '_' then (if isDig prev then dropUnders '_' cs else none)
    else if prev = '_' ∧ isDig c = false then none
    else (dropUnders c cs).map (c :: ·)

/-- The number a sequence of digits stands for. -/
def digitsVal (acc : Nat) (s : PyStr) : Nat := s.foldl (fun a c => a * 10 + (c.toNat - 48)) acc

/-- `m * 10^k`. -/
def scale10 (m : Nat) (k : Int) : Rat :=
  if 0 ≤ k then (m : Rat) * 10 ^ k.toNat else (m : Rat) / 10 ^ (-k).toNat

/-- An optional sign: whether it is "-", and what follows. -/
def signPart : PyStr → Bool × PyStr
  | '-' :: r => (true, r)
  | '+' :: r => (false, r)
  | r => (false, r)

/-- The exponent part of a number: "e", an optional sign, digits. -/
def parseExp : PyStr → Option Int
  | [] => some 0
  | c :: cs =>
    if c = 'e' ∨ c = 'E' then
      let p := signPart cs
      if p.2 ≠ [] ∧ p.2.all isDig then
        some (if p.1 then -(digitsVal 0 p.2 : Int) else (digitsVal 0 p.2 : Int))
      else none
    else none

/-- The digits after the point, and what follows them. -/
def fracPart : PyStr → PyStr × PyStr
  | '.' :: r => (r.takeWhile isDig, r.dropWhile isDig)
  | r => ([], r)

/-- A decimal number without a sign. -/
def parseDec (s : PyStr) : Option Rat :=
  let i := s.takeWhile isDig
  let p := fracPart (s.dropWhile isDig)
  if i = [] ∧ p.1 = [] then none
  else match parseExp p.2 with
    | none => none
    | some e => some (scale10 (digitsVal 0 (i ++ p.1)) (e - (p.1.length : Int)))

def infNames : List PyStr := [['i', 'n', 'f'], ['i', 'n', 'f', 'i', 'n', 'i', 't', 'y']]
def nanName : PyStr := ['n', 'a', 'n']

/-- The part of a number after the sign. -/
def parseUnsigned (fl : Rat → Rat) (neg : Bool) (s : PyStr) : Option Flt :=
  if s.map Char.toLower ∈ infNames then some (.inf neg)
  else if s.map Char.toLower = nanName then some .nan
  else (parseDec s).map fun x => mkFlt fl (if neg then -x else x)

/-- `float(text)`, `none` stands for `ValueError`. Python's documented grammar. -/
def parseFloat (fl : Rat → Rat) (s : PyStr) : Option Flt :=
  match dropUnders ' ' (strip s) with
  | none => none
  | some r => parseUnsigned fl (signPart r).1 (signPart r).2

/-- Models: pepclibs/helperlibs/Trivial.py:193-212 `is_num()` for a text. -/
def isNum (fl : Rat → Rat) (s : PyStr) : Bool :=
  match EP.parse10 s with
  | .ok _ => true
  | .error _ => (parseFloat fl s).isSome

/-! ### Units -/

/-- The SI prefixes in the order of the dictionaries. The small scalers are `float` literals.
Models: pepclibs/helperlibs/Human.py:99-120. -/
def siTable (fl : Rat → Rat) : List (Char × Num) :=
  [('E', .int 1000000000000000000), ('P', .int 1000000000000000), ('T', .int 1000000000000),
   ('G', .int 1000000000), ('M', .int 1000000), ('k', .int 1000),
   ('m', .flt (.fin (fl (1 / 1000)))), ('u', .flt (.fin (fl (1 / 1000000)))),
   ('n', .flt (.fin (fl (1 / 1000000000))))]

/-- The prefixes of byte sizes in the order of the dictionary. Models: pepclibs/helperlibs/Human.py:30-45. -/
def biTable : List (PyStr × Num) :=
  [(['E', 'i'], .int (1024 * 1024 * 1024 * 1024 * 1024 * 1024)), (['P', 'i'], .int (1024 * 1024 * 1024 * 1024 * 1024)),
   (['T', 'i'], .int (1024 * 1024 * 1024 * 1024)), (['G', 'i'], .int (1024 * 1024 * 1024)),
   (['M', 'i'], .int (1024 * 1024)), (['K', 'i'], .int 1024)]

/-- The scaler of an SI prefix. -/
def siScaler (fl : Rat → Rat) (p : Char) : Option Num :=
  ((siTable fl).find? (fun e => e.1 == p)).map (·.2)

/-- Models: pepclibs/helperlibs/Human.py:122-153 `separate_si_prefix()`, without the warning. -/
def separate (fl : Rat → Rat) (unit : PyStr) : Option Char × PyStr :=
  match unit with
  | p :: c :: cs => if (siScaler fl p).isSome then (some p, c :: cs) else (none, unit)
  | u => (none, u)

/-- The specifiers and their scalers, and whether several of them are allowed.
Models: pepclibs/helperlibs/Human.py:392-445 `_tokenize_prepare()`; the full names are used only in messages. -/
def prepare (fl : Rat → Rat) (unit : PyStr) : List (PyStr × Num) × Bool :=
  let si := (siTable fl).map fun e => (e.1 :: unit, e.2)
  let extra : List (PyStr × Num) :=
    if unit = ['B'] then biTable.map fun e => (e.1 ++ unit, e.2)
    else if unit = ['s'] then
      [(['d'], .int (24 * 60 * 60)), (['D'], .int (24 * 60 * 60)), (['h'], .int (60 * 60)),
       (['H'], .int (60 * 60)), (['m'], .int 60), (['M'], .int 60)]
    else []
  (si ++ extra ++ [(unit, .int 1)], decide (unit = ['s']))

/-! ### Tokens -/

/-- Remove a prefix. -/
def dropPre : PyStr → PyStr → Option PyStr
  | [], s => some s
  | _ :: _, [] => none
  | c :: cs, d :: ds => if c = d then dropPre cs ds else none

/-- `s.split(spec, 1)` for a non-empty `spec`: the parts before and after the first occurrence, `none` if
there is no occurrence. -/
def splitOnce (spec : PyStr) : PyStr → Option (PyStr × PyStr)
  | [] => match dropPre spec [] with
    | some r => some ([], r)
    | none => none
  | c :: cs => match dropPre spec (c :: cs) with
    | some r => some ([], r)
    | none => (splitOnce spec cs).map fun p => (c :: p.1, p.2)

/-- The loop splitting the text by the specifiers. Models: pepclibs/helperlibs/Human.py:353-363. An empty
specifier makes `split()` fail with `ValueError`. -/
def splitSpecs {ν : Type} : List (PyStr × ν) → PyStr → Except Exn (List (PyStr × ν) × PyStr)
  | [], rest => .ok ([], rest)
  | (spec, sc) :: specs, rest =>
    if spec = [] then .error .pyValueError
    else match splitOnce spec rest with
      | none => splitSpecs specs rest
      | some (a, b) =>
        match splitSpecs specs b with
        | .error e => .error e
        | .ok (l, r) => .ok ((a, sc) :: l, r)

/-- The conversion of the amounts: integers, the last one may be a floating point number.
Models: pepclibs/helperlibs/Human.py:371-388. The list has the scaler of the specifier instead of the
specifier itself. -/
def amounts (fl : Rat → Rat) : List (PyStr × Num) → Except Exn (List (Num × Num))
  | [] => .ok []
  | [(val, sc)] =>
    match parseFloat fl val with
    | none => .error .error
    | some x =>
      if EP.isInt val then
        match EP.parse10 val with
        | .error e => .error e
        | .ok n => .ok [(.int n, sc)]
      else .ok [(.flt x, sc)]
  | (val, sc) :: t :: ts =>
    match EP.parse10 val with
    | .error _ => .error .error
    | .ok n =>
      match amounts fl (t :: ts) with
      | .error e => .error e
      | .ok l => .ok ((.int n, sc) :: l)

/-- Models: pepclibs/helperlibs/Human.py:322-390 `_tokenize()`. -/
def tokenize (fl : Rat → Rat) (hval : PyStr) (specs : List (PyStr × Num)) (multiple : Bool) :
    Except Exn (List (Num × Num)) :=
  match splitSpecs specs hval with
  | .error e => .error e
  | .ok (toks, rest) =>
    if strip rest ≠ [] then .error .error
    else if multiple = false ∧ 1 < toks.length then .error .error
    else amounts fl toks

/-! ### Arithmetic -/

/-- `val * scaler`; the scalers are positive. -/
def mulNum (fl : Rat → Rat) : Num → Num → Except Exn Num
  | .int v, .int s => .ok (.int (v * s))
  | .int v, .flt (.fin s) =>
    match ofInt fl v with
    | .error e => .error e
    | .ok x => .ok (.flt (mkFlt fl (x * s)))
  | .flt (.fin x), .int s =>
    match ofInt fl s with
    | .error e => .error e
    | .ok y => .ok (.flt (mkFlt fl (x * y)))
  | .flt (.fin x), .flt (.fin s) => .ok (.flt (mkFlt fl (x * s)))
  | .flt (.inf n), _ => .ok (.flt (.inf n))
  | _, _ => .ok (.flt .nan)

/-- `result + val` for a `float` result. -/
def addNum (fl : Rat → Rat) : Flt → Num → Except Exn Flt
  | .fin r, .int v =>
    match ofInt fl v with
    | .error e => .error e
    | .ok x => .ok (mkFlt fl (r + x))
  | .fin r, .flt (.fin x) => .ok (mkFlt fl (r + x))
  | .fin _, .flt y => .ok y
  | .inf n, .int v =>
    match ofInt fl v with
    | .error e => .error e
    | .ok _ => .ok (.inf n)
  | .inf n, .flt (.fin _) => .ok (.inf n)
  | .inf n, .flt (.inf m) => .ok (if n = m then .inf n else .nan)
  | .inf _, .flt .nan => .ok .nan
  | .nan, .int v =>
    match ofInt fl v with
    | .error e => .error e
    | .ok _ => .ok .nan
  | .nan, .flt _ => .ok .nan

/-- The sum. Models: pepclibs/helperlibs/Human.py:504-506. -/
def sumToks (fl : Rat → Rat) : Flt → List (Num × Num) → Except Exn Flt
  | r, [] => .ok r
  | r, (v, s) :: l =>
    match mulNum fl v s with
    | .error e => .error e
    | .ok x =>
      match addNum fl r x with
      | .error e => .error e
      | .ok r' => sumToks fl r' l

/-- `result / scaler`. -/
def divNum (fl : Rat → Rat) : Flt → Num → Except Exn Flt
  | .fin r, .int s =>
    match ofInt fl s with
    | .error e => .error e
    | .ok y => .ok (mkFlt fl (r / y))
  | .fin r, .flt (.fin s) => .ok (mkFlt fl (r / s))
  | x, _ => .ok x

/-- `round(result)`. -/
def roundFlt : Flt → Except Exn Int
  | .fin x => .ok (pyRound x)
  | .inf _ => .error .pyOverflowError
  | .nan => .error .pyValueError

/-- The prefix and the base unit of the target unit. Models: pepclibs/helperlibs/Human.py:488-491. -/
def targetUnit (fl : Rat → Rat) (base : PyStr) : Option PyStr → Option Char × PyStr
  | none => (none, base)
  | some [] => (none, base)
  | some t => separate fl t

/-- Models: pepclibs/helperlibs/Human.py:508-509. -/
def toTarget (fl : Rat → Rat) (r : Flt) : Option Char → Except Exn Flt
  | none => .ok r
  | some p => match siScaler fl p with
    | none => .ok r
    | some s => divNum fl r s

/-- Models: pepclibs/helperlibs/Human.py:447-514 `parse_human()` for a text. The result is an `int` if
`integer` is set. -/
def parseHuman (fl : Rat → Rat) (hval unit : PyStr) (target : Option PyStr) (integer : Bool) :
    Except Exn Num :=
  let u := separate fl unit
  let t := targetUnit fl u.2 target
  if t.2 ≠ u.2 then .error .error
  else
    let hval := if isNum fl hval then hval ++ u.1.toList ++ u.2 else hval
    let sp := prepare fl u.2
    match tokenize fl hval sp.1 sp.2 with
    | .error e => .error e
    | .ok toks =>
      match sumToks fl (.fin 0) toks with
      | .error e => .error e
      | .ok r =>
        match toTarget fl r t.1 with
        | .error e => .error e
        | .ok r =>
          if integer then
            match roundFlt r with
            | .error e => .error e
            | .ok n => .ok (.int n)
          else .ok (.flt r)

/-! ### Formatting -/

/-- `n` digits of `m`, with leading zeroes. -/
def padded : Nat → Nat → PyStr
  | 0, _ => []
  | n + 1, m => padded n (m / 10) ++ [digitC m]

/-- `f"{x:.{decp}f}"`: the exact value of the number rounded half to even. -/
def fmtFixed (decp : Nat) (x : Rat) : PyStr :=
  let k := (pyRound (|x| * 10 ^ decp)).toNat
  (if x < 0 then ['-'] else []) ++ ofNat (k / 10 ^ decp) ++
    (if decp = 0 then [] else '.' :: padded decp k)

/-- Trailing zeroes after the point are removed. Models: pepclibs/helperlibs/Human.py:206-208, 230-232. -/
def fmtVal (decp : Nat) (zeroes : Bool) (x : Rat) : PyStr :=
  let r := fmtFixed decp x
  if zeroes ∧ '.' ∈ r then rstripBy (· == '.') (rstripBy (· == '0') r) else r

/-- The loop over the large prefixes. Models: pepclibs/helperlibs/Human.py:218-221. -/
def largeLoop (fl : Rat → Rat) : List Char → Rat → Rat × Option Char
  | [], v => (v, none)
  | [p], v => (fl (v / 1000), some p)
  | p :: ps, v => if |fl (v / 1000)| < 1000 then (fl (v / 1000), some p) else largeLoop fl ps (fl (v / 1000))

/-- The loop over the small prefixes. Models: pepclibs/helperlibs/Human.py:223-226. -/
def smallLoop (fl : Rat → Rat) : List Char → Rat → Rat × Option Char
  | [], v => (v, none)
  | [p], v => (fl (v * 1000), some p)
  | p :: ps, v => if 1 ≤ |fl (v * 1000)| then (fl (v * 1000), some p) else smallLoop fl ps (fl (v * 1000))

/-- The value of a scaler as a `float`. -/
def scalerVal : Num → Rat
  | .int s => s
  | .flt (.fin s) => s
  | _ => 0

/-- Models: pepclibs/helperlibs/Human.py:155-242 `num2si()` for a finite `float` value; the results of the
multiplications are assumed to be finite. `decp` is at most 8, `sep` is empty if `unit` is, otherwise there
is an error. `float(result) != 0` is the test that the text has a digit other than zero. -/
def num2si (fl : Rat → Rat) (value : Rat) (unit : PyStr) (decp : Nat) (sep : PyStr) (zeroes : Bool) :
    Except Exn PyStr :=
  if 8 < decp then .error .error
  else if sep ≠ [] ∧ unit = [] then .error .error
  else
    let u := separate fl unit
    if 1 ≤ |value| ∧ |value| < 1000 then .ok (fmtVal decp zeroes value ++ sep ++ u.2)
    else
      let v := match u.1 with
        | none => value
        | some p => if 500 ≤ |value| ∨ |value| < 1 then
            fl (value * ((siScaler fl p).map scalerVal).getD 1) else value
      let vp : Rat × Option Char :=
        if 500 < |v| then largeLoop fl ['k', 'M', 'G', 'T', 'P', 'E'] v
        else if |v| < 1 then smallLoop fl ['m', 'u', 'n'] v
        else (v, u.1)
      let r := fmtVal decp zeroes vp.1
      match vp.2 with
      | some p =>
        if r.any (fun c => isDig c && c != '0') then .ok (r ++ sep ++ [p] ++ u.2)
        else if u.2 ≠ [] then .ok (r ++ sep ++ u.2) else .ok r
      | none => if u.2 ≠ [] then .ok (r ++ sep ++ u.2) else .ok r

/-- Models: pepclibs/helperlibs/Human.py:272-320 `duration()` for a whole number of seconds. -/
def duration (fl : Rat → Rat) (seconds : Int) (s : Bool) : Except Exn PyStr :=
  if seconds = 0 then num2si fl 0 ['s'] 1 [] true
  else
    let n := seconds.natAbs
    let mins := n / 60
    let secs := n % 60
    let hours := mins / 60
    let mins := mins % 60
    let days := hours / 24
    let hours := hours % 24
    let result :=
      (if days ≠ 0 then ofNat days ++ [' ', 'd', 'a', 'y', 's', ' '] else []) ++
      (if hours ≠ 0 then ofNat hours ++ ['h', ' '] else []) ++
      (if mins ≠ 0 then ofNat mins ++ ['m', ' '] else []) ++
      (if (s ∨ n < 60) ∧ secs ≠ 0 then ofNat secs ++ ['s', ' '] else [])
    .ok ((if seconds < 0 then ['-'] else []) ++ strip result)

-- The examples of the documentation strings.
section
private def id' : Rat → Rat := fun x => x
example : parseHuman id' "1m".toList "s".toList (some "s".toList) true = .ok (.int 60) := by decide +kernel
example : parseHuman id' "100s".toList "s".toList (some "ns".toList) true = .ok (.int 100000000000) := by
  decide +kernel
example : parseHuman id' "1h 10m 5s".toList "s".toList (some "us".toList) true = .ok (.int 4205000000) := by
  decide +kernel
example : parseHuman id' "101ns".toList "s".toList (some "us".toList) false = .ok (.flt (.fin (101 / 1000))) := by
  decide +kernel
example : num2si id' (1 / 10) "W".toList 1 [] false = .ok "100.0mW".toList := by decide +kernel
example : num2si id' 1999 "uW".toList 3 " ".toList false = .ok "1.999 mW".toList := by decide +kernel
example : duration id' 3661 true = .ok "1h 1m 1s".toList := by decide +kernel
example : duration id' 3661 false = .ok "1h 1m".toList := by decide +kernel
example : duration id' 0 false = .ok "0s".toList := by decide +kernel
example : parseFloat id' " -1_0.5e-1 ".toList = some (.fin (-(105 / 100))) := by decide +kernel
example : parseFloat id' "1__0".toList = none ∧ parseFloat id' ".".toList = none ∧
  parseFloat id' "-Inf".toList = some (.inf true) := by decide +kernel
end

end Verif.Human
