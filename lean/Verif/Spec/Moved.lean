import Verif.Spec.Program
/-!
# RINEX 2 files of a moving receiver: positions announced inside the file

(From the model only the shapes of the inputs of the main loop are used, as in `Verif.Spec.Program`.)
-/
namespace Verif.Spec
open Verif.Py Verif.Model

/-- a header line of an event: a position, or a line without meaning for the program -/
def HLine.InEvent : HLine → Prop
  | .position x y z => (HLine.position x y z).Ok
  | .other l => (HLine.other l).Ok ∧ labelOf l ≠ c% "# / TYPES OF OBSERV"
  | _ => False

/-- the event announces the position `m` (or none): events with flags 3 and 4 contain header lines, the first position among them counts -/
def Event.Announces (v : Nat) (e : Event) (m : Option Pos) : Prop :=
  (e.flag = 3 ∨ e.flag = 4 → ∃ hs, HeaderText v e.body hs ∧ (∀ h ∈ hs, h.InEvent) ∧ m = hs.findSome? HLine.pos) ∧
  (¬ (e.flag = 3 ∨ e.flag = 4) → m = none)

/-- a body read from the position `p` on: the epochs, each with the position announced last before it, and the position after the body -/
inductive Track (v : Nat) : Pos → List Item → List (Epoch × Pos) → Pos → Prop
  | done (p) : Track v p [] [] p
  | epoch {p e r l q} : Track v p r l q → Track v p (.obs e :: r) ((e, p) :: l) q
  | event {p e m r l q} : e.Announces v m → Track v (m.getD p) r l q → Track v p (.event e :: r) l q

/-- a RINEX 2 observation file as in `File2`, with positions announced inside; `seen` are the epochs, each with its position: the one announced last
before it, the one of the header if there is none; `final` is the position announced last -/
structure Moved2 (file : List Str) (v : Nat) (sys : Char) (hs : List HLine) (ts : List Str) (items : List Item) (seen : List (Epoch × Pos)) (final : Pos) : Prop where
  version : v ∈ [200, 210, 211]
  text : ∃ before tls after hs1 hs2 f d endl body, f ≠ '\n' ∧ sys ≠ '\n' ∧ WordsOk d ∧ hs = hs1 ++ hs2 ∧ file = before ++ tls ++ after ++ endl :: body ∧ TypeText tls ts ∧
    HeaderText v before (.version v f sys d :: hs1) ∧ HeaderText v after hs2 ∧
    (∀ x ∈ before, contains (c% "# / TYPES OF OBSERV") x = false) ∧
    (∀ l ∈ before ++ tls ++ after, contains (c% "END OF HEADER") l = false) ∧ labelOf endl = c% "END OF HEADER" ∧
    Written body (bodyLines items)
  header : ∀ h ∈ hs, h.Ok
  types : (∀ t ∈ ts, t.length = 2) ∧ ts.length < 1000000 ∧ ts.Nodup
  body : ∀ i ∈ items, i.Ok ts.length
  track : Track v (sitePos hs) items seen final
  epochs : ∀ e ∈ seen, e.1.sats ≠ []
  two : 2 ≤ seen.length
  increasing : seen.Pairwise fun a b => instant a.1.time < instant b.1.time
  span : ∀ a ∈ seen, ∀ b ∈ seen, instant b.1.time - instant a.1.time < 99999000000

/-- the position the program starts with: that of the eleventh epoch, the last one if there are fewer -/
def startPos (seen : List (Epoch × Pos)) (final : Pos) : Pos := (seen[10]?.map (·.2)).getD final

/-- what the program knows of the file at `path`: everything as in `Opened2`, but the positions are those of a reading that starts with `startPos` -/
structure OpenedMoved2 (path : Str) (v : Nat) (sys : Char) (hs : List HLine) (ts : List Str) (items : List Item) (seen : List (Epoch × Pos)) (final : Pos)
    (o : ObsIn) : Prop where
  filename : o.filename = path
  date : ∀ d, o.fileDate = some d ↔ NamedDay path d
  system : o.system = if sys = ' ' then 'G' else sys
  tofo : o.tofo = hs.findSome? HLine.saysFirstObs
  xyz : o.xyz = startPos seen final
  interval : ∃ i, MostFrequent i ((spacings (seen.map (·.1.time))).take 10) ∧ Stored v i (.fin o.interval)
  items : ∃ used, Track v (startPos seen final) items used final ∧ o.items = used.flatMap fun e => e.1.items ts e.2
  stop : o.stop = .ok ()

end Verif.Spec
