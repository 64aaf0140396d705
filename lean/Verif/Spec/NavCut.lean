import Verif.Spec.Nav
import Verif.Spec.Program
/-!
# Specification: navigation files cut short
-/
namespace Verif.Spec
open Verif.Py

/-- the number of lines of a sequence of messages: one and the orbit lines for each -/
def lineCount (ms : List NavMsg) : Nat := (ms.map fun m => 1 + m.rows.length).sum

/-- The values left of a message when its last line is cut after `j` characters: all values of the lines before; of the last line the fields that have arrived,
and 0 for those that have not begun. The field in which the cut lies can be anything. -/
def CutMessage (indent j : Nat) (m : NavMsg) (v : List PyFloat) : Prop :=
  ∃ rows r w, m.rows = rows ++ [r] ∧ v = (rows.flatMap fun r => r.fields.map fun f => PyFloat.fin f.value) ++ w ∧ w.length = r.fields.length ∧
    ∀ k f x, r.fields[k]? = some f → w[k]? = some x →
      (indent + 19 * (k + 1) ≤ j → x = .fin f.value) ∧ (j ≤ indent + 19 * k → x = .fin 0)

/-- a navigation file cut short in its line `k` after the header (counted from 0), of which the first `j` characters are left, `j` not 0; before the cut it
held the messages `ms` -/
structure NavShort (file : List Str) (w v : Nat) (ms : List NavMsg) (k j : Nat) : Prop where
  version : ((w : Rat) / 100, v) ∈ navReaders
  some_left : 0 < j
  text : ∃ f sys d hs hdr endl body x, WordsOk d ∧ file = hdr ++ endl :: (body.take k ++ [x.take j]) ∧ body[k]? = some x ∧
    HeaderText v hdr (.version w f sys d :: hs) ∧ (∀ h ∈ hs, h.Ok) ∧
    (∀ l ∈ hdr, labelOf l ≠ c% "END OF HEADER") ∧ labelOf endl = c% "END OF HEADER" ∧
    (∀ m ∈ ms, Readable (decide (300 ≤ v)) v (.version w f sys d :: hs) m) ∧ NavBody (decide (300 ≤ v)) ms body

/-- the messages whose lines have arrived with `k` lines and a part of the next: those whose last line is among the `k` lines, and perhaps one more, whose last
line is the one with the cut -/
def ArrivedBefore (ms : List NavMsg) (k : Nat) (done : List NavMsg) : Prop :=
  ∃ rest, ms = done ++ rest ∧ lineCount done ≤ k + 1 ∧ ∀ m, rest.head? = some m → k < lineCount (done ++ [m])

/-- a position computation that looks at the first 24 values of a message and at their number only -/
def UsesFirst24 (satPos : List PyFloat → Rat → Except PyErr Pos) : Prop :=
  ∀ a b dt, a.take 24 = b.take 24 → a.length = b.length → satPos a dt = satPos b dt

end Verif.Spec
