import Verif.Py.Str
/-!
# Bytes and text files
-/
namespace Verif.Py

abbrev Bytes := List UInt8

/-- `bytes.decode('ascii', 'ignore')` -/
def decodeAscii (b : Bytes) : Str := (b.filter (· < 128)).map fun x => Char.ofNat x.toNat

/-- universal newlines: what a file opened in text mode does to `\r\n` and `\r` when reading; `cr`: the last character was `\r` -/
def newlinesGo : Bool → Str → Str
  | _, [] => []
  | cr, c :: cs =>
    if c = '\r' then '\n' :: newlinesGo true cs
    else if c = '\n' ∧ cr = true then newlinesGo false cs
    else c :: newlinesGo false cs

/-- universal newlines -/
def newlines (s : Str) : Str := newlinesGo false s

/-- the lines of a sequence, each with its end mark (iteration over a file) -/
def linesOfSeq {α : Type} [DecidableEq α] (nl : α) : List α → List (List α)
  | [] => []
  | c :: cs =>
    if c = nl then [c] :: linesOfSeq nl cs
    else match linesOfSeq nl cs with
      | [] => [[c]]
      | l :: ls => (c :: l) :: ls

/-- the lines of a text file with the given characters -/
def textLines (s : Str) : List Str := linesOfSeq '\n' (newlines s)

end Verif.Py
