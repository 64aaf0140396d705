import Verif.Spec.Moved
/-!
# RINEX 3 files with positions announced inside the file

(From the model only the shapes of the inputs of the main loop are used, as in `Verif.Spec.Program`.)
-/
namespace Verif.Spec
open Verif.Py Verif.Model

/-- the lines of an event block: positions, and lines without meaning for the program -/
def Ev3.Holds (v : Nat) (e : Ev3) (hs : List HLine) : Prop :=
  HeaderText v e.body hs ∧ (∀ h ∈ hs, h.InEvent) ∧ ∀ l ∈ e.body, labelOf l ≠ lblSys

/-- the event announces the position `m` (or none): events with flags 3 (new site) and 4 (header information) contain header lines, the first position among them counts -/
def Ev3.Announces (v : Nat) (e : Ev3) (m : Option Pos) : Prop :=
  ∃ hs, e.Holds v hs ∧ m = if e.flag = 3 ∨ e.flag = 4 then hs.findSome? HLine.pos else none

/-- the epochs of a body, each with the position announced last before it (`p` before the first one) -/
inductive Track3 (v : Nat) : Pos → List Item3 → List (Ep3 × Pos) → Prop
  | done (p) : Track3 v p [] []
  | epoch {p e r l} : Track3 v p r l → Track3 v p (.obs e :: r) ((e, p) :: l)
  | event {p e m r l} : e.Announces v m → Track3 v (m.getD p) r l → Track3 v p (.event e :: r) l

/-- the epochs of a body, each with the position the program has for it: `heard` is the first position in the event blocks so far, whatever their flags; it
comes into force at the end of a block with flag 4 that is not empty -/
inductive Heard (v : Nat) : Option Pos → Pos → List Item3 → List (Ep3 × Pos) → Prop
  | done (heard p) : Heard v heard p [] []
  | epoch {heard p e r l} : Heard v heard p r l → Heard v heard p (.obs e :: r) ((e, p) :: l)
  | event {heard p e hs r l} : e.Holds v hs →
      Heard v (heard.or (hs.findSome? HLine.pos)) (if e.flag = 4 ∧ e.body ≠ [] then (heard.or (hs.findSome? HLine.pos)).getD p else p) r l →
      Heard v heard p (.event e :: r) l

/-- a RINEX 3 observation file as in `File3`, with positions announced inside; `seen` are the epochs, each with its position -/
structure Moved3 (file : List Str) (v : Nat) (sys : Char) (es : List HEntry) (items : List Item3) (a b : DateTime) (seen : List (Ep3 × Pos)) : Prop where
  version : v ∈ [300, 301, 302, 303]
  text : ∃ f d hdr endl body, f ≠ '\n' ∧ sys ≠ '\n' ∧ WordsOk d ∧ file = hdr ++ endl :: body ∧
    PhysicalLines hdr ((HEntry.line (.version v f sys d) :: es).map (HEntry.lines v)).flatten ∧
    (∀ l ∈ hdr, labelOf l ≠ c% "END OF HEADER") ∧ labelOf endl = c% "END OF HEADER" ∧ Written body (bodyLines3 items) ∧ ∀ l ∈ body, l ≠ []
  header : ∀ e ∈ es, e.Ok
  numbers : ∀ s n codes, HEntry.sys s n codes ∈ es → n = codes.length
  systems : ((typeMapOf v es).map (·.1)).Nodup ∧ typeMapOf v es ≠ []
  body : ∀ i ∈ items, i.Ok (typeMapOf v es)
  track : Track3 v (sitePos (linesOf es)) items seen
  times : ∃ rest, candidates (itemMarks items) = some a :: rest ∧ otherThan (some a) rest = some b
  legal : Legal a ∧ Legal b
  increasing : 0 < instant b - instant a
  span : instant b - instant a < 99999000000

/-- what the program knows of the file at `path`: everything as in `Opened3`, the positions as in `Heard` -/
structure OpenedMoved3 (path : Str) (v : Nat) (sys : Char) (es : List HEntry) (items : List Item3) (a b : DateTime) (o : ObsIn) : Prop where
  filename : o.filename = path
  date : ∀ d, o.fileDate = some d ↔ NamedDay path d
  system : o.system = sys
  tofo : o.tofo = (linesOf es).findSome? HLine.saysFirstObs
  xyz : o.xyz = sitePos (linesOf es)
  interval : Stored v (instant b - instant a) (.fin o.interval)
  items : ∃ used, Heard v none (sitePos (linesOf es)) items used ∧ o.items = used.flatMap fun e => e.1.items (typeMapOf v es) e.2
  stop : o.stop = .ok ()

/-- the epochs of a body -/
def epochs3 : List Item3 → List Ep3
  | [] => []
  | .obs e :: r => e :: epochs3 r
  | .event _ :: r => epochs3 r

/-- no position among the lines of the block -/
def Ev3.Silent (v : Nat) (e : Ev3) : Prop := ∃ hs, e.Holds v hs ∧ hs.findSome? HLine.pos = none

end Verif.Spec
