import Verif.Py.Err
/-!
# Python strings

A Python `str` is the list of its characters.  Only the operations used by the code are modelled.
-/
namespace Verif.Py

abbrev Str := List Char

open Lean in
/-- `c% "abc"` is the literal `['a', 'b', 'c']`. -/
macro "c%" s:str : term => do
  let cs := s.getString.toList.map fun c => (⟨Lean.Syntax.mkCharLit c⟩ : TSyntax `term)
  `([$(cs.toArray),*])

/-- `str.isspace` of one character (the complete set of Python white space). -/
def isSpace (c : Char) : Bool :=
  let n := c.toNat
  (9 ≤ n && n ≤ 13) || (28 ≤ n && n ≤ 32) || n == 0x85 || n == 0xa0 || n == 0x1680 ||
  (0x2000 ≤ n && n ≤ 0x200a) || n == 0x2028 || n == 0x2029 || n == 0x202f || n == 0x205f ||
  n == 0x3000

/-- `s[a:b]` for `0 ≤ a`, `0 ≤ b`. -/
def slice (s : Str) (a b : Nat) : Str := (s.drop a).take (b - a)

/-- `s.rstrip()` -/
def rstrip : Str → Str
  | [] => []
  | c :: cs =>
    match rstrip cs with
    | [] => if isSpace c then [] else [c]
    | d :: ds => c :: d :: ds

/-- `s.lstrip()` -/
def lstrip (s : Str) : Str := s.dropWhile isSpace

/-- `s.strip()` -/
def strip (s : Str) : Str := lstrip (rstrip s)

/-- `s.isspace()`: non-empty and only white space. -/
def isSpaceStr (s : Str) : Bool := !s.isEmpty && s.all isSpace

/-- `s.split()` (on runs of white space), with the current word in `acc` (reversed). -/
def splitWsGo : Str → Str → List Str
  | [], acc => if acc.isEmpty then [] else [acc.reverse]
  | c :: cs, acc =>
    if isSpace c then
      if acc.isEmpty then splitWsGo cs [] else acc.reverse :: splitWsGo cs []
    else splitWsGo cs (c :: acc)

/-- `s.split()` -/
def splitWs (s : Str) : List Str := splitWsGo s []

/-- `s.split(sep)` for a one-character separator. -/
def splitOn (sep : Char) : Str → List Str
  | [] => [[]]
  | c :: cs =>
    if c = sep then [] :: splitOn sep cs
    else match splitOn sep cs with
      | [] => [[c]]
      | w :: ws => (c :: w) :: ws

/-- `needle in s` -/
def contains (needle : Str) : Str → Bool
  | [] => needle.isEmpty
  | c :: cs => needle.isPrefixOf (c :: cs) || contains needle cs

/-- `s.replace(a, b)` for single characters. -/
def replaceChar (a b : Char) (s : Str) : Str := s.map fun c => if c = a then b else c

/-- ASCII part of `str.upper` (other characters are left alone; RINEX files are ASCII). -/
def upperC (c : Char) : Char :=
  if 97 ≤ c.toNat ∧ c.toNat ≤ 122 then Char.ofNat (c.toNat - 32) else c

/-- ASCII part of `str.lower`. -/
def lowerC (c : Char) : Char :=
  if 65 ≤ c.toNat ∧ c.toNat ≤ 90 then Char.ofNat (c.toNat + 32) else c

def upper (s : Str) : Str := s.map upperC
def lower (s : Str) : Str := s.map lowerC

/-- `s.zfill(w)` for a string without sign. -/
def zfill (w : Nat) (s : Str) : Str := List.replicate (w - s.length) '0' ++ s

/-- `' ' * k + s` such that the width is at least `w` (right justification). -/
def padLeft (w : Nat) (s : Str) : Str := List.replicate (w - s.length) ' ' ++ s

/-- left justification -/
def padRight (w : Nat) (s : Str) : Str := s ++ List.replicate (w - s.length) ' '

end Verif.Py
