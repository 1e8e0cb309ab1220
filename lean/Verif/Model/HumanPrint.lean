import Verif.Model.PrinterText

/-!
Model of printing properties for people: pepctool/_PepcPrinter.py, the lines printed by the 'info' commands and, after
setting a property, by the 'config' commands. What is read and how it is grouped is in `Verif.Model.PropsYaml`, the texts for
CPUs, dies, packages and lists of numbers are in `Verif.Model.PrinterText`.
-/

namespace Verif.HumanPrint

open CPUInfo (Info)
open PropsYaml
open PrinterText

/-- The types of properties. "float" is used like "int", and "list[float]" like "list[int]". -/
inductive PType where
  | str
  | bool
  | int
  | listStr
  | listInt
  | dict
  deriving DecidableEq, Repr

/-- The value of a property, `Q` stands for numbers (integers or fractions). Values of the "bool" type are "on" and "off". -/
inductive Val (Q : Type) where
  | str (s : PyStr)
  | num (q : Q)
  | strs (l : List PyStr)
  | nums (l : List Int)
  | dict (l : List (PyStr × PyStr))
  deriving DecidableEq, Repr

/-- The information about a property: `prop["name"]`, `prop["type"]`, whether `prop["sname"]` is "global", and
`prop["writable"]`. -/
structure PropInfo where
  name : PyStr
  type : PType
  isGlobal : Bool
  writable : Bool
  deriving DecidableEq, Repr

/-- How numbers are printed. `unit pname` and `unitInt pname` are `_format_unit()` (pepctool/_PepcPrinter.py:142-152) with
the unit of the property, `isZero q` is `q == 0`, and `pmqos` tells whether the printer is a 'PMQoSPrinter'. -/
structure Fmt (Q : Type) where
  unit : PyStr → Q → PyStr
  unitInt : PyStr → Int → PyStr
  isZero : Q → Bool
  pmqos : Bool

variable {Q : Type}

/-- Models: pepctool/_PepcPrinter.py:540-550, the special cases of `PMQoSPrinter._format_value_human()`. -/
def zeroText (F : Fmt Q) (pname : PyStr) : Val Q → Option PyStr
  | .num q =>
    if F.pmqos && F.isZero q then
      if pname = "latency_limit".toList then some "0 (no limit)".toList
      else if pname = "global_latency_limit".toList then some "0 (absolute minimum)".toList
      else none
    else none
  | _ => none

/-- `f"{k}={v}"`. -/
def eqText (p : PyStr × PyStr) : PyStr := p.1 ++ '=' :: p.2

/-- A value which does not fit the type raises a `TypeError`. Lists of strings and dictionaries have no unit. The empty tuple
is not turned into a string when formatted, it is printed as "()".
Models: pepctool/_PepcPrinter.py:124-200 and 540-552 `_format_value_human()`. -/
def formatValue (F : Fmt Q) (pname : PyStr) (type : PType) (val : Val Q) : Except Exn PyStr :=
  match zeroText F pname val with
  | some s => .ok s
  | none =>
    match type, val with
    | .str, .str s => .ok s
    | .bool, .str s => .ok s
    | .int, .num q => .ok (F.unit pname q)
    | .dict, .dict l => .ok (joinComma (l.map eqText))
    | .listStr, .strs l => .ok (joinComma l)
    | .listInt, .nums [] => .ok "()".toList
    | .listInt, .nums l => .ok (fmtList (F.unitInt pname) l)
    | _, _ => .error .pyTypeError

/-- `prop["type"].startswith("list") or prop["type"].startswith("dict")`. -/
def PType.isMany : PType → Bool
  | .listStr | .listInt | .dict => true
  | _ => false

/-- `prop["type"] in {"int", "float", "list[int]", "list[float]"}`. -/
def PType.isNum : PType → Bool
  | .int | .listInt => true
  | _ => false

/-- The text between the name and the CPU numbers, `sfx` tells whether there are any; `none` if no line is printed.
Models: pepctool/_PepcPrinter.py:237-248. -/
def valueText (F : Fmt Q) (pname : PyStr) (p : PropInfo) (sfx : Bool) : Option (Val Q) → Except Exn (Option PyStr)
  | none => .ok (some "not supported".toList)
  | some val =>
    match formatValue F pname p.type val with
    | .error e => .error e
    | .ok s =>
      if s.isEmpty && p.type.isMany then .ok none
      else if sfx && !p.type.isNum then .ok (some ('\'' :: s ++ ['\'']))
      else .ok (some s)

/-- The line for a value, `none` if no line is printed. There are always numbers, `nums is None` does not happen.
Models: pepctool/_PepcPrinter.py:202-253 `_print_prop_human()`. -/
def printProp (i : Info) (F : Fmt Q) (action pfx : Option PyStr) (pname : PyStr) (p : PropInfo) (sname : SName)
    (val : Option (Val Q)) (nums : Where) : Except Exn (Option PyStr) :=
  let sfx : Except Exn PyStr :=
    if p.isGlobal then .ok []
    else match fmtNums i sname nums with
      | .error e => .error e
      | .ok s => .ok (" for ".toList ++ s)
  match sfx with
  | .error e => .error e
  | .ok sfx =>
    match valueText F pname p (!sfx.isEmpty) val with
    | .error e => .error e
    | .ok none => .ok none
    | .ok (some v) =>
      let msg := pfx.getD [] ++ (p.name ++ ": ".toList)
      let msg := match action with
        | none => msg
        | some a => msg ++ (a ++ " ".toList)
      .ok (some (msg ++ (v ++ sfx)))

/-- The lines printed, and the count or the exception. -/
abbrev Out := List PyStr × Except Exn Nat

/-- Do `r` after printing `lines` and counting `n`. -/
def Out.after (lines : List PyStr) (n : Nat) (r : Out) : Out :=
  (lines ++ r.1, match r.2 with
    | .error e => .error e
    | .ok m => .ok (n + m))

/-- The loop over the values of a property. Models: pepctool/_PepcPrinter.py:261-264. -/
def printVals (i : Info) (F : Fmt Q) (action pfx : Option PyStr) (pname : PyStr) (p : PropInfo) (sname : SName) :
    Dict (Option (Val Q)) Where → Out
  | [] => ([], .ok 0)
  | (val, nums) :: vals =>
    match printProp i F action pfx pname p sname val nums with
    | .error e => ([], .error e)
    | .ok line => Out.after line.toList 1 (printVals i F action pfx pname p sname vals)

/-- Models: pepctool/_PepcPrinter.py:255-266 `_do_print_aggr_pinfo_human()`. -/
def printPinfos (i : Info) (F : Fmt Q) (props : Dict PyStr PropInfo) (action pfx : Option PyStr) :
    Dict PyStr (PInfo (Val Q)) → Out
  | [] => ([], .ok 0)
  | (pname, pinfo) :: rest =>
    match props.get? pname with
    | none => ([], .error .pyKeyError)
    | some p =>
      match printVals i F action pfx pname p pinfo.sname pinfo.vals with
      | (lines, .error e) => (lines, .error e)
      | (lines, .ok n) => Out.after lines n (printPinfos i F props action pfx rest)

/-- `descr` is `get_mechanism_descr()`.
Models: pepctool/_PepcPrinter.py:268-286 `_print_aggr_pinfo_human()`. -/
def printAggr (i : Info) (F : Fmt Q) (props : Dict PyStr PropInfo) (descr : PyStr → PyStr) (group : Bool)
    (action : Option PyStr) : Aggr (Val Q) → Out
  | [] => ([], .ok 0)
  | (mname, pinfos) :: rest =>
    let source := if group then ["Source: ".toList ++ descr mname] else []
    match printPinfos i F props action (if group then some " - ".toList else none) pinfos with
    | (lines, .error e) => (source ++ lines, .error e)
    | (lines, .ok n) => Out.after (source ++ lines) n (printAggr i F props descr group action rest)

/-- Names of properties, `none` is "all". Models: pepctool/_PepcPrinter.py:466-478 `_normalize_pnames()`. -/
def normalizePnames (props : Dict PyStr PropInfo) (skipRo : Bool) (pnames : Option (List PyStr)) :
    Except Exn (List PyStr) :=
  let names : Except Exn (List PyStr) := match pnames with
    | none => .ok props.keys
    | some l => if l.all (props.keys.contains ·) then .ok l else .error .error
  match names with
  | .error e => .error e
  | .ok l =>
    if !skipRo then .ok l
    else .ok (l.filter fun n => match props.get? n with
      | none => false
      | some p => p.writable)

/-- Models: pepctool/_PepcPrinter.py:480-506 `print_props()` in the "human" format. `read` is what is read for the CPUs, dies
or packages of the command and with the mechanisms allowed. -/
def printProps [DecidableEq Q] (i : Info) (F : Fmt Q) (props : Dict PyStr PropInfo) (descr : PyStr → PyStr)
    (read : PyStr → Bool → Except Exn (List (PV (Val Q)))) (skipRo skipUnsupported group : Bool) (action : Option PyStr)
    (pnames : Option (List PyStr)) : Out :=
  match normalizePnames props skipRo pnames with
  | .error e => ([], .error e)
  | .ok pnames =>
    match buildAggr read skipUnsupported pnames [] with
    | .error e => ([], .error e)
    | .ok aggr => printAggr i F props descr group action aggr

end Verif.HumanPrint
