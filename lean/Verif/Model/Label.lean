import Verif.Py.Dict
import Verif.Py.Str
/-!
# `/repo/tecs/rinex/label.py`, `/repo/tecs/validity.py`, `/repo/tecs/gtb/tools.py`

A tuple of labels is the list of its strings (equal tuples = equal lists).
-/
namespace Verif.Model
open Verif.Py

/-- a label tuple, `/repo/tecs/rinex/label.py:57-102` -/
abbrev Fam := List Str

/-- `codes(band, code)`, `/repo/tecs/rinex/label.py:50-52` -/
def codes (band code : Str) : Fam := code.map fun c => band ++ [c]

namespace Lbl

/-- `C1`, `/repo/tecs/rinex/label.py:57` -/
def C1 : Fam := [c% "C1"] ++ codes (c% "C1") (c% "CSLXYMABCZ")

/-- `C2`, `/repo/tecs/rinex/label.py:58` -/
def C2 : Fam := [c% "C2"] ++ codes (c% "C2") (c% "CDSLXYMIQ")

/-- `C3`, `/repo/tecs/rinex/label.py:59` -/
def C3 : Fam := [c% "C3I", c% "C3Q", c% "C3X"]

/-- `C5`, `/repo/tecs/rinex/label.py:60` -/
def C5 : Fam := [c% "C5"] ++ codes (c% "C5") (c% "IQX")

/-- `C6`, `/repo/tecs/rinex/label.py:61` -/
def C6 : Fam := [c% "C6"] ++ codes (c% "C6") (c% "IQXABCZ")

/-- `C7`, `/repo/tecs/rinex/label.py:62` -/
def C7 : Fam := [c% "C7"] ++ codes (c% "C7") (c% "IQX")

/-- `C8`, `/repo/tecs/rinex/label.py:63` -/
def C8 : Fam := [c% "C8"] ++ codes (c% "C8") (c% "IQX")

/-- `P1`, `/repo/tecs/rinex/label.py:65` -/
def P1 : Fam := [c% "P1", c% "C1P", c% "C1W"]

/-- `P2`, `/repo/tecs/rinex/label.py:66` -/
def P2 : Fam := [c% "P2", c% "C2P", c% "C2W"]

/-- `P5`, `/repo/tecs/rinex/label.py:67` -/
def P5 : Fam := [c% "P5"]

/-- `P6`, `/repo/tecs/rinex/label.py:68` -/
def P6 : Fam := [c% "P6"]

/-- `P7`, `/repo/tecs/rinex/label.py:69` -/
def P7 : Fam := [c% "P7"]

/-- `P8`, `/repo/tecs/rinex/label.py:70` -/
def P8 : Fam := [c% "P8"]

/-- `L1`, `/repo/tecs/rinex/label.py:73` -/
def L1 : Fam := [c% "L1"] ++ codes (c% "L1") (c% "CSLXPWYMNABCZ")

/-- `L2`, `/repo/tecs/rinex/label.py:74` -/
def L2 : Fam := [c% "L2"] ++ codes (c% "L2") (c% "CDSLXPWYMNIQ")

/-- `L3`, `/repo/tecs/rinex/label.py:75` -/
def L3 : Fam := [c% "L3I", c% "L3Q", c% "L3X"]

/-- `L5`, `/repo/tecs/rinex/label.py:76` -/
def L5 : Fam := [c% "L5"] ++ codes (c% "L5") (c% "IQX")

/-- `L6`, `/repo/tecs/rinex/label.py:77` -/
def L6 : Fam := [c% "L6"] ++ codes (c% "L6") (c% "IQXABCZ")

/-- `L7`, `/repo/tecs/rinex/label.py:78` -/
def L7 : Fam := [c% "L7"] ++ codes (c% "L7") (c% "IQX")

/-- `L8`, `/repo/tecs/rinex/label.py:79` -/
def L8 : Fam := [c% "L8"] ++ codes (c% "L8") (c% "IQX")

/-- `S1`, `/repo/tecs/rinex/label.py:91` -/
def S1 : Fam := [c% "S1"] ++ codes (c% "S1") (c% "CSLXPWYMNABCZ")

/-- `S2`, `/repo/tecs/rinex/label.py:92` -/
def S2 : Fam := [c% "S2"] ++ codes (c% "S2") (c% "CDSLXPWYMNIQ")

/-- `S3`, `/repo/tecs/rinex/label.py:93` -/
def S3 : Fam := [c% "S3I", c% "S3Q", c% "S3X"]

/-- `S5`, `/repo/tecs/rinex/label.py:94` -/
def S5 : Fam := [c% "S5"] ++ codes (c% "S5") (c% "IQX")

/-- `S6`, `/repo/tecs/rinex/label.py:95` -/
def S6 : Fam := [c% "S6"] ++ codes (c% "S6") (c% "IQXABCZ")

/-- `S7`, `/repo/tecs/rinex/label.py:96` -/
def S7 : Fam := [c% "S7"] ++ codes (c% "S7") (c% "IQX")

/-- `S8`, `/repo/tecs/rinex/label.py:97` -/
def S8 : Fam := [c% "S8"] ++ codes (c% "S8") (c% "IQX")

/-- `D1`, `/repo/tecs/rinex/label.py:82` -/
def D1 : Fam := [c% "D1"] ++ codes (c% "D1") (c% "CSLXPWYMNABCZ")

/-- `D2`, `/repo/tecs/rinex/label.py:83` -/
def D2 : Fam := [c% "D2"] ++ codes (c% "D2") (c% "CDSLXPWYMNIQ")

/-- `D3`, `/repo/tecs/rinex/label.py:84` -/
def D3 : Fam := [c% "D3I", c% "D3Q", c% "D3X"]

/-- `D5`, `/repo/tecs/rinex/label.py:85` -/
def D5 : Fam := [c% "D5"] ++ codes (c% "D5") (c% "IQX")

/-- `D6`, `/repo/tecs/rinex/label.py:86` -/
def D6 : Fam := [c% "D6"] ++ codes (c% "D6") (c% "ABCXZ")

/-- `D7`, `/repo/tecs/rinex/label.py:87` -/
def D7 : Fam := [c% "D7"] ++ codes (c% "D7") (c% "IQX")

/-- `D8`, `/repo/tecs/rinex/label.py:88` -/
def D8 : Fam := [c% "D8"] ++ codes (c% "D8") (c% "IQX")

/-- `LLI1`, `/repo/tecs/rinex/label.py:100` -/
def LLI1 : Fam := [c% "LLI1"]

/-- `LLI2`, `/repo/tecs/rinex/label.py:101` -/
def LLI2 : Fam := [c% "LLI2"]

/-- `LLI5`, `/repo/tecs/rinex/label.py:102` -/
def LLI5 : Fam := [c% "LLI5"]

/-- `OBS_TYPE_LABELS`, `/repo/tecs/rinex/label.py:104-109` -/
def OBS_TYPE_LABELS : List Fam := [
  C1, C2, C3, C5, C6, C7, C8,
  P1, P2, P5, P6, P7, P8,
  L1, L2, L3, L5, L6, L7, L8,
  S1, S2, S3, S5, S6, S7, S8,
  D1, D2, D3, D5, D6, D7, D8]

/-- `LABELS`, `/repo/tecs/rinex/label.py:112` -/
def LABELS : List Fam := OBS_TYPE_LABELS ++ [LLI1, LLI2, LLI5]

end Lbl

/-- the loop of `get_label`, `/repo/tecs/rinex/label.py:117-119` -/
def getLabelIn (label : Str) : List Fam → Except PyErr Fam
  | [] => .error .label
  | typeSet :: rest => if label ∈ typeSet then .ok typeSet else getLabelIn label rest

/-- `get_label(label)`, `/repo/tecs/rinex/label.py:115-122` -/
def getLabel (label : Str) : Except PyErr Fam := getLabelIn label Lbl.LABELS

/-! ## `validity.py` -/

open Lbl in
/-- `BIT_SET`, `/repo/tecs/validity.py:33-51` -/
def BIT_SET : Dict Fam Nat := [
  (LLI1, 2 ^ 0), (LLI2, 2 ^ 1), (C1, 2 ^ 2), (L1, 2 ^ 3), (L2, 2 ^ 4), (P1, 2 ^ 5), (P2, 2 ^ 6),
  (S1, 2 ^ 7), (S2, 2 ^ 8), (D1, 2 ^ 9), (D2, 2 ^ 10), (D5, 2 ^ 11), (C2, 2 ^ 12), (C5, 2 ^ 13),
  (L5, 2 ^ 14), (S5, 2 ^ 15), (LLI5, 2 ^ 16)]

/-- the loop of `set_bits`, `/repo/tecs/validity.py:56-59`, with the value so far -/
def setBitsFrom (value : Nat) : List Str → Except PyErr Nat
  | [] => .ok value
  | o :: os =>
    match getLabel o with
    | .error e => .error e
    | .ok label =>
      match BIT_SET.get? label with
      | some b => setBitsFrom (value ||| b) os
      | none => setBitsFrom value os

/-- `set_bits(obs_types)`, `/repo/tecs/validity.py:54-60` -/
def setBits (obsTypes : List Str) : Except PyErr Nat := setBitsFrom 0 obsTypes

/-- `eval_validity(obs_types, validity_types)`, `/repo/tecs/validity.py:63-80` -/
def evalValidity (obsTypes validityTypes : List Str) : Except PyErr Nat :=
  match setBits obsTypes with
  | .error e => .error e
  | .ok standard =>
    match setBits validityTypes with
    | .error e => .error e
    | .ok actual => .ok (standard ^^^ actual)

/-! ## `gtb/tools.py` -/

/-- comparison of strings by code points (`<=` of `str`), used by the sort of `/repo/tecs/gtb/tools.py:53` -/
def strLe : Str → Str → Bool
  | [], _ => true
  | _ :: _, [] => false
  | a :: as, b :: bs => if a.toNat < b.toNat then true else if b.toNat < a.toNat then false else strLe as bs

/-- insertion into a sorted list, for the sort of `/repo/tecs/gtb/tools.py:53` -/
def insertStr (x : Str) : List Str → List Str
  | [] => [x]
  | y :: l => if strLe x y then x :: y :: l else y :: insertStr x l

/-- `list.sort()` on strings, `/repo/tecs/gtb/tools.py:53` -/
def sortStr : List Str → List Str
  | [] => []
  | x :: l => insertStr x (sortStr l)

/-- the inner loop of `parse_rec`, `/repo/tecs/gtb/tools.py:57-61`: the first type of the list in the family, and the list without it -/
def pickType (otSet : Fam) : List Str → Option Str × List Str
  | [] => (none, [])
  | ot :: ots =>
    if ot ∈ otSet then (some ot, ots)
    else
      let (r, rest) := pickType otSet ots
      (r, ot :: rest)

/-- the outer loop of `parse_rec`, `/repo/tecs/gtb/tools.py:55-61`.  A value of the result is `none` for `(None,) * 3`.  `rec[ot]` cannot fail:
`ot` comes from `rec.keys()`; the model gives `none` in that case. -/
def parseRecLoop {α : Type} (r : Dict Str α) : List Fam → List Str → Dict Fam (Option α) → Dict Fam (Option α)
  | [], _, datum => datum
  | otSet :: rest, obsTypes, datum =>
    let datum := datum.set otSet none
    match pickType otSet obsTypes with
    | (none, ots) => parseRecLoop r rest ots datum
    | (some ot, ots) => parseRecLoop r rest ots (datum.set otSet (r.get? ot))

/-- `parse_rec(rec)`, `/repo/tecs/gtb/tools.py:35-63` -/
def parseRec {α : Type} (r : Dict Str α) : Dict Fam (Option α) :=
  parseRecLoop r Lbl.OBS_TYPE_LABELS (sortStr r.keys) []

end Verif.Model
