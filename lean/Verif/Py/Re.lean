import Verif.Py.Num
/-!
# Regular expressions

The part of Python's `re` that the code uses, as a backtracking matcher that lists its successes in Python's order of
preference (greedy repetitions, alternatives from left to right).  A success is the matched text, the rest, and the groups.

Simplifications: `\w`, `\d` and the case folding of `re.I` are ASCII (Python also accepts other letters and digits).
-/
namespace Verif.Py

inductive Re where
  | eps
  | chr (p : Char → Bool)
  | seq (a b : Re)
  | alt (a b : Re)
  | many (p : Char → Bool)
  | grp (n : Nat) (a : Re)
  | eol

structure Hit where
  text : Str
  rest : Str
  groups : List (Nat × Str)

/-- greedy `p*`: longest first -/
def manyRun (p : Char → Bool) : Str → List Hit
  | [] => [⟨[], [], []⟩]
  | c :: s =>
    if p c then (manyRun p s).map (fun h => { h with text := c :: h.text }) ++ [⟨[], c :: s, []⟩]
    else [⟨[], c :: s, []⟩]

/-- all successes, in order of preference -/
def Re.run : Re → Str → List Hit
  | .eps, s => [⟨[], s, []⟩]
  | .chr _, [] => []
  | .chr p, c :: s => if p c then [⟨[c], s, []⟩] else []
  | .seq a b, s => (a.run s).flatMap fun h => (b.run h.rest).map fun k => ⟨h.text ++ k.text, k.rest, h.groups ++ k.groups⟩
  | .alt a b, s => a.run s ++ b.run s
  | .many p, s => manyRun p s
  | .grp n a, s => (a.run s).map fun h => { h with groups := (n, h.text) :: h.groups }
  | .eol, s => if s = [] ∨ s = ['\n'] then [⟨[], s, []⟩] else []

/-- `re.match` -/
def Re.match1 (r : Re) (s : Str) : Option Hit := (r.run s).head?

/-- `bool(re.match(s))` -/
def Re.accepts (r : Re) (s : Str) : Bool := !(r.run s).isEmpty

/-- `m.group(n)` -/
def Hit.group (h : Hit) (n : Nat) : Str := ((h.groups.find? fun p => p.1 = n).map (·.2)).getD []

/-! ## pieces of patterns -/

/-- `\w` -/
def isWord (c : Char) : Bool := isDigit c || (65 ≤ c.toNat && c.toNat ≤ 90) || (97 ≤ c.toNat && c.toNat ≤ 122) || c == '_'

def reW : Re := .chr isWord
def reD : Re := .chr isDigit
/-- `.` -/
def reAny : Re := .chr (· != '\n')
/-- `.*` -/
def reAnys : Re := .many (· != '\n')
/-- `\s*` -/
def reSpaces : Re := .many isSpace

/-- a literal character under `re.I` -/
def reC (c : Char) : Re := .chr fun x => lowerC x == lowerC c
/-- a literal text under `re.I` -/
def reLit : Str → Re
  | [] => .eps
  | c :: cs => .seq (reC c) (reLit cs)

/-- one of the characters, under `re.I` -/
def reOneOf (cs : Str) : Re := .chr fun x => cs.any fun c => lowerC x == lowerC c

/-- `r{n}` -/
def reRep (r : Re) : Nat → Re
  | 0 => .eps
  | n + 1 => .seq r (reRep r n)

/-- `r?` (greedy) -/
def reOpt (r : Re) : Re := .alt r .eps

/-- sequence -/
def reSeq : List Re → Re
  | [] => .eps
  | r :: rs => .seq r (reSeq rs)

/-- alternatives -/
def reAlt : List Re → Re
  | [] => .chr fun _ => false
  | [r] => r
  | r :: rs => .alt r (reAlt rs)

end Verif.Py
