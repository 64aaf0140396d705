import Verif.Py.Str
/-!
# Python numbers: `int(str)`, `float(str)`, number formatting

* `int()`: surrounding white space, an optional sign, decimal digits with single underscores between digits.
  Simplification: only ASCII digits (Python also accepts other Unicode decimal digits).
* `float()`: the same plus fraction, exponent and `inf`, `infinity`, `nan` in any case.  The value is the exact rational
  (rounding to binary64, overflow to infinity and underflow are not modelled).
-/
namespace Verif.Py

def isDigit (c : Char) : Bool := 48 ≤ c.toNat && c.toNat ≤ 57
def digitVal (c : Char) : Nat := c.toNat - 48

/-- decimal digits with single underscores between them; `prev` = the previous character was a digit -/
def digitsGo : Str → Bool → Nat → Option Nat
  | [], prev, acc => if prev then some acc else none
  | c :: cs, prev, acc =>
    if isDigit c then digitsGo cs true (acc * 10 + digitVal c)
    else if c = '_' ∧ prev = true then digitsGo cs false acc
    else none

/-- value of a non-empty digit string -/
def parseDigits (s : Str) : Option Nat := digitsGo s false 0

/-- sign of a number and the rest: `(negative?, rest)` -/
def parseSign : Str → Bool × Str
  | [] => (false, [])
  | c :: cs => if c = '-' then (true, cs) else if c = '+' then (false, cs) else (false, c :: cs)

/-- `int(s)`; `none` is ValueError -/
def parseInt (s : Str) : Option Int :=
  let (neg, r) := parseSign (strip s)
  (parseDigits r).map fun (n : Nat) => if neg then -(n : Int) else (n : Int)

/-- `int(s)` -/
def pyInt (s : Str) : Except PyErr Int :=
  match parseInt s with
  | some v => .ok v
  | none => .error .value

/-- A Python float: an exact rational, an infinity or not-a-number. -/
inductive PyFloat where
  | fin (q : Rat)
  | inf (neg : Bool)
  | nan
  deriving DecidableEq

/-- split at the first character satisfying `p`: the part before, and the part after it if it occurs -/
def cutAt (p : Char → Bool) : Str → Str × Option Str
  | [] => ([], none)
  | c :: cs => if p c then ([], some cs) else
    let (a, b) := cutAt p cs
    (c :: a, b)

/-- number of digits (underscores do not count) -/
def digitCount (s : Str) : Nat := (s.filter isDigit).length

/-- digit part that may be empty (value 0) -/
def parseDigits0 (s : Str) : Option Nat := if s = [] then some 0 else parseDigits s

/-- mantissa: `digits [. [digits]]` or `. digits` -/
def parseMant (m : Str) : Option Rat :=
  match cutAt (· == '.') m with
  | (a, none) => (parseDigits a).map fun (n : Nat) => (n : Rat)
  | (a, some b) =>
    if a = [] ∧ b = [] then none
    else match parseDigits0 a, parseDigits0 b with
      | some x, some y => some ((x : Rat) + (y : Rat) / (10 : Rat) ^ digitCount b)
      | _, _ => none

/-- `10 ** e` for an integer exponent -/
def pow10 (e : Int) : Rat :=
  match e with
  | .ofNat n => (10 : Rat) ^ n
  | .negSucc n => 1 / (10 : Rat) ^ (n + 1)

/-- unsigned decimal number -/
def parseUFloat (s : Str) : Option Rat :=
  match cutAt (fun c => c == 'e' || c == 'E') s with
  | (m, none) => parseMant m
  | (m, some e) =>
    match parseMant m, parseSign e with
    | some q, (neg, r) => (parseDigits r).map fun (n : Nat) => q * pow10 (if neg then -(n : Int) else n)
    | none, _ => none

/-- `float(s)`; `none` is ValueError -/
def parseFloat (s : Str) : Option PyFloat :=
  let (neg, r) := parseSign (strip s)
  let l := lower r
  if l = c% "inf" ∨ l = c% "infinity" then some (.inf neg)
  else if l = c% "nan" then some .nan
  else (parseUFloat r).map fun q => .fin (if neg then -q else q)

/-- `float(s)` -/
def pyFloat (s : Str) : Except PyErr PyFloat :=
  match parseFloat s with
  | some v => .ok v
  | none => .error .value

/-- truncation towards zero of a rational (`int(x)`) -/
def truncRat (q : Rat) : Int := if 0 ≤ q then q.floor else -((-q).floor)

/-- round half to even to an integer (the rounding of `%.kf`, here on exact values) -/
def roundHalfEven (q : Rat) : Int :=
  let f := q.floor
  let r := q - f
  if r < 1/2 then f else if 1/2 < r then f + 1 else if f % 2 = 0 then f else f + 1

/-- `float("%.kf" % x)` on exact values -/
def roundDec (k : Nat) (q : Rat) : Rat := (roundHalfEven (q * 10 ^ k) : Rat) / 10 ^ k

/-- truth value of a float (`if x:`) -/
def PyFloat.truthy : PyFloat → Bool
  | .fin q => q != 0
  | _ => true

/-- decimal digits of a natural number (most significant first), fuel version -/
def natDigits : Nat → Nat → Str → Str
  | 0, _, acc => acc
  | fuel + 1, n, acc =>
    let acc := Char.ofNat (48 + n % 10) :: acc
    if n / 10 = 0 then acc else natDigits fuel (n / 10) acc

/-- `str(n)` for a natural number -/
def natStr (n : Nat) : Str := natDigits (n + 1) n []

/-- `str(i)` for an integer -/
def intStr (i : Int) : Str := if i < 0 then '-' :: natStr i.natAbs else natStr i.natAbs

/-- `"%02d" % i`, `"{:03}"`, ...: zero padding to width `w`, the sign counting as a column -/
def intStrZ (w : Nat) (i : Int) : Str :=
  if i < 0 then '-' :: zfill (w - 1) (natStr i.natAbs) else zfill w (natStr i.natAbs)

end Verif.Py
