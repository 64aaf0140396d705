import Verif.Spec.Moved
/-!
# RINEX 2 files with epochs in any order: repeated epochs, epochs without satellites, times that go back

(From the model only the shapes of the inputs of the main loop are used, as in `Verif.Spec.Program`.)
-/
namespace Verif.Spec
open Verif.Py Verif.Model

/-- the epochs that count, when `prev` is the time of the epoch before: all but those with the time of the epoch just before them -/
def fresh (prev : Option DateTime) : List (Epoch × Pos) → List (Epoch × Pos)
  | [] => []
  | x :: r => if prev = some x.1.time then fresh (some x.1.time) r else x :: fresh (some x.1.time) r

/-- the times of the observations of a file -/
def obsTimes (l : List (Epoch × Pos)) : List DateTime := ((fresh none l).filter fun x => x.1.sats ≠ []).map (·.1.time)

/-- what looking for the interval leaves behind, a position and the time of an epoch: it reads the whole file, or up to the first observation of the epoch
that gives the tenth spacing -/
inductive Left (seen : List (Epoch × Pos)) (final : Pos) : Pos → Option DateTime → Prop
  | whole : (spacings (obsTimes seen)).length < 10 → Left seen final final (seen.getLast?.map (·.1.time))
  | stopped (pre e p post) : seen = pre ++ (e, p) :: post → (spacings (obsTimes pre)).length = 9 → (spacings (obsTimes (pre ++ [(e, p)]))).length = 10 →
      Left seen final p (pre.getLast?.map (·.1.time))

/-- a RINEX 2 observation file as in `Moved2`, with any epochs; the interval `i` is not negative and below 99999 s -/
structure Any2 (file : List Str) (v : Nat) (sys : Char) (hs : List HLine) (ts : List Str) (items : List Item) (seen : List (Epoch × Pos)) (final : Pos) : Prop where
  version : v ∈ [200, 210, 211]
  text : ∃ before tls after hs1 hs2 f d endl body, f ≠ '\n' ∧ sys ≠ '\n' ∧ WordsOk d ∧ hs = hs1 ++ hs2 ∧ file = before ++ tls ++ after ++ endl :: body ∧ TypeText tls ts ∧
    HeaderText v before (.version v f sys d :: hs1) ∧ HeaderText v after hs2 ∧
    (∀ x ∈ before, contains (c% "# / TYPES OF OBSERV") x = false) ∧
    (∀ l ∈ before ++ tls ++ after, contains (c% "END OF HEADER") l = false) ∧ labelOf endl = c% "END OF HEADER" ∧
    Written body (bodyLines items)
  header : ∀ h ∈ hs, h.Ok
  types : (∀ t ∈ ts, t.length = 2) ∧ ts.length < 1000000 ∧ ts.Nodup
  body : ∀ i ∈ items, i.Ok ts.length
  track : Track v (sitePos hs) items seen final

/-- the interval found is `i`: the most frequent of the first ten spacings; not negative and below 99999 s -/
structure IntervalIs (seen : List (Epoch × Pos)) (i : Int) : Prop where
  frequent : MostFrequent i ((spacings (obsTimes seen)).take 10)
  forward : 0 ≤ i
  short : i < 99999000000

/-- what the program knows of the file at `path` -/
structure OpenedAny2 (path : Str) (v : Nat) (sys : Char) (hs : List HLine) (ts : List Str) (items : List Item) (seen : List (Epoch × Pos)) (final : Pos) (i : Int)
    (o : ObsIn) : Prop where
  filename : o.filename = path
  date : ∀ d, o.fileDate = some d ↔ NamedDay path d
  system : o.system = if sys = ' ' then 'G' else sys
  tofo : o.tofo = hs.findSome? HLine.saysFirstObs
  interval : Stored v i (.fin o.interval)
  items : ∃ m used q, Left seen final o.xyz m ∧ Track v o.xyz items used q ∧ o.items = (fresh m used).flatMap fun e => e.1.items ts e.2
  stop : o.stop = .ok ()

end Verif.Spec
