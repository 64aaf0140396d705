import Verif.Spec.Xyz
/-!
# Specification: configuration files

One item per line: white space, a comment starting in column one, or `name = value` with optional white space and an optional trailing remark.
-/
namespace Verif.Spec
open Verif.Py

/-- a line of a configuration file -/
inductive CfgItem where
  | blank (ws : Str)
  | comment (t : Str)
  | assign (a name b c value d : Str) (remark : Option Str)

/-- the text of the line (without its end) -/
def CfgItem.text : CfgItem → Str
  | .blank ws => ws
  | .comment t => '#' :: t
  | .assign a name b c value d none => a ++ name ++ b ++ '=' :: (c ++ value ++ d)
  | .assign a name b c value d (some r) => a ++ name ++ b ++ '=' :: (c ++ value ++ d) ++ '#' :: r

/-- a name: no white space, no `=`, no `#` -/
def CfgName (s : Str) : Prop := ∀ c ∈ s, isSpace c = false ∧ c ≠ '=' ∧ c ≠ '#'

/-- a value: no `=`, no `#`, no white space at its ends; possibly empty -/
def CfgValue (s : Str) : Prop :=
  (∀ c ∈ s, c ≠ '=' ∧ c ≠ '#') ∧ (∀ c, s.head? = some c → isSpace c = false) ∧ (∀ c, s.getLast? = some c → isSpace c = false)

def CfgItem.Ok : CfgItem → Prop
  | .blank ws => Blank ws
  | .comment _ => True
  | .assign a name b c value d _ => Blank a ∧ CfgName name ∧ Blank b ∧ Blank c ∧ CfgValue value ∧ Blank d

/-- the item gives a non-empty value `v` to `n` -/
def CfgItem.Sets (i : CfgItem) (n v : Str) : Prop := v ≠ [] ∧ ∃ a b c d r, i = .assign a n b c v d r

/-- `v` is the last non-empty value given to `n` -/
def LastValue (items : List CfgItem) (n v : Str) : Prop :=
  ∃ pre i post, items = pre ++ i :: post ∧ i.Sets n v ∧ ∀ j ∈ post, ∀ w, ¬ j.Sets n w

/-- `lines` are the items, each with some white space (the newline) at its end -/
inductive CfgWritten : List CfgItem → List Str → Prop
  | nil : CfgWritten [] []
  | cons (i : CfgItem) (e : Str) (is : List CfgItem) (ls : List Str) : i.Ok → Blank e → CfgWritten is ls → CfgWritten (i :: is) ((i.text ++ e) :: ls)

/-- what the program cannot read: after removing white space at the end of the line and then the remark, something is left which does not contain exactly
one `=` -/
def CfgBad (l : Str) : Prop :=
  ∃ p q e : Str, l = p ++ q ++ e ∧ Blank e ∧ (∀ c, (p ++ q).getLast? = some c → isSpace c = false) ∧
    (∀ c ∈ p, c ≠ '#') ∧ (q = [] ∨ q.head? = some '#') ∧ p ≠ [] ∧ p.count '=' ≠ 1

/-- a setting written plainly, or between quotation marks of one kind -/
def Denotes (s t : Str) : Prop :=
  (∀ c ∈ t, c ≠ '\'' ∧ c ≠ '"' ∧ c ≠ '\\') ∧ (s = t ∨ ∃ q, (q = '\'' ∨ q = '"') ∧ s = q :: t ++ [q])

/-- `eval` gives the contents of a raw string literal -/
def EvalsLiterals (ev : Str → Except PyErr Str) : Prop :=
  ∀ q t : _, (q = '\'' ∨ q = '"') → (∀ c ∈ t, c ≠ '\'' ∧ c ≠ '"' ∧ c ≠ '\\') → ev ('r' :: q :: t ++ [q]) = .ok t

/-- a comma-separated list: the text is the pieces joined by commas -/
def Listed (text : Str) (pieces : List Str) : Prop :=
  pieces ≠ [] ∧ (∀ p ∈ pieces, ∀ c ∈ p, c ≠ ',') ∧ text = List.intercalate [','] pieces

end Verif.Spec
