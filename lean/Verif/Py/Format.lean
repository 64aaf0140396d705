import Verif.Py.Num
/-!
# `str.format` with explicit positions: `"{0:11d} {3: 10.5f}\n".format(*vals)`

Only replacement fields `{n}` and `{n:spec}` are modelled (no `{{`, `}}`, no nested fields, no attribute access: none occur), with the format
specifications `[ ]W[.P]d` and `[ ]W[.P]f` and the empty one.  Floats are exact, so `f` rounds the exact value half to even.
-/
namespace Verif.Py

/-- a value passed to `format` -/
inductive FVal where
  | int (i : Int)
  | flt (x : PyFloat)
  | str (s : Str)
  deriving DecidableEq

/-- digits of a non-negative rational rounded to `p` decimals (half to even) -/
def fixedAbs (p : Nat) (q : Rat) : Str :=
  let n := (roundHalfEven (q * 10 ^ p)).toNat
  if p = 0 then natStr n else natStr (n / 10 ^ p) ++ '.' :: zfill p (natStr (n % 10 ^ p))

/-- `format(x, "[ ].Pf")` without padding; `sp`: a blank in front of non-negative numbers -/
def fixedStr (sp : Bool) (p : Nat) (x : PyFloat) : Str :=
  match x with
  | .fin q => if q < 0 then '-' :: fixedAbs p (-q) else if sp then ' ' :: fixedAbs p q else fixedAbs p q
  | .inf neg => if neg then c% "-inf" else if sp then c% " inf" else c% "inf"
  | .nan => if sp then c% " nan" else c% "nan"

/-- a format specification: blank flag, width, precision, type -/
structure FSpec where
  sp : Bool
  width : Nat
  prec : Nat
  typ : Char
  deriving DecidableEq

/-- width (and precision) of a specification without flag and type -/
def parseWidth (s : Str) : Option (Nat × Nat) :=
  match cutAt (· == '.') s with
  | (w, none) => (parseDigits w).map fun (n : Nat) => (n, 6)
  | (w, some p) =>
    match parseDigits w, parseDigits p with
    | some a, some b => some (a, b)
    | _, _ => none

/-- parse a non-empty specification -/
def parseSpec (s : Str) : Option FSpec :=
  let (sp, r) := match s with
    | [] => (false, [])
    | c :: cs => if c = ' ' then (true, cs) else (false, c :: cs)
  match r.reverse with
  | [] => none
  | t :: w =>
    if t = 'd' ∨ t = 'f' then (parseWidth w.reverse).map fun wp => ⟨sp, wp.1, wp.2, t⟩
    else none

/-- `format(v, spec)`.  `d` accepts integers only; `f` accepts numbers; strings accept the empty specification only (all others: ValueError).  The empty
specification on a float (`repr`) is not modelled and gives `exc`. -/
def formatVal (spec : Str) (v : FVal) : Except PyErr Str :=
  if spec = [] then
    match v with
    | .int i => .ok (intStr i)
    | .str s => .ok s
    | .flt _ => .error .exc
  else
    match parseSpec spec with
    | none => .error .value
    | some f =>
      if f.typ = 'd' then
        match v with
        | .int i => .ok (padLeft f.width (if f.sp ∧ 0 ≤ i then ' ' :: intStr i else intStr i))
        | _ => .error .value
      else
        match v with
        | .int i => .ok (padLeft f.width (fixedStr f.sp f.prec (.fin i)))
        | .flt x => .ok (padLeft f.width (fixedStr f.sp f.prec x))
        | .str _ => .error .value

/-- a replacement field (the text between the braces) -/
def formatField (vals : List FVal) (body : Str) : Except PyErr Str :=
  let (idx, spec) := match cutAt (· == ':') body with
    | (i, none) => (i, [])
    | (i, some s) => (i, s)
  match parseDigits idx with
  | none => .error .value
  | some n =>
    match vals[n]? with
    | none => .error .index
    | some v => formatVal spec v

/-- the scan of the format string; `cur` is the text (reversed) of the replacement field being read -/
def formatGo (vals : List FVal) : Option Str → Str → Except PyErr Str
  | none, [] => .ok []
  | some _, [] => .error .value
  | none, c :: cs =>
    if c = '{' then formatGo vals (some []) cs
    else if c = '}' then .error .value
    else
      match formatGo vals none cs with
      | .error e => .error e
      | .ok r => .ok (c :: r)
  | some acc, c :: cs =>
    if c = '}' then
      match formatField vals acc.reverse with
      | .error e => .error e
      | .ok t =>
        match formatGo vals none cs with
        | .error e => .error e
        | .ok r => .ok (t ++ r)
    else formatGo vals (some (c :: acc)) cs

/-- `fmt.format(*vals)` -/
def strFormat (fmt : Str) (vals : List FVal) : Except PyErr Str := formatGo vals none fmt

end Verif.Py
