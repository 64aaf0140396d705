import Verif.Model.Program
import Verif.Spec.Main
import Verif.Spec.Fetch
import Verif.Spec.Version
import Verif.Spec.Interval
import Verif.Spec.Interval3
import Verif.Spec.NavNames
import Verif.Spec.Xyz
import Verif.Spec.Nav
import Verif.Spec.Select
/-!
# Specification of a whole run: from the files on the disk to the records

(From the model only `Disk`, the configuration and the shapes of the inputs of the main loop are used.)
-/
namespace Verif.Spec
open Verif.Py Verif.Model

/-! ## Directories -/

/-- the path of the entry `n` of the directory `d` -/
def inDir (d n : Str) : Str := if d = [] then n else if d.getLast? = some '/' then d ++ n else d ++ '/' :: n

/-- the listings of the directories -/
def Listings (D : Disk) (dirs : List Str) (ls : List (List Str)) : Prop := List.Forall₂ (fun d l => D.listing d = .ok l) dirs ls

open Classical in
/-- the files processed, in order: all entries of the directories that have the name of an observation file, sorted by path -/
structure InputFiles (D : Disk) (dirs paths : List Str) : Prop where
  sorted : paths.Pairwise fun a b => a = b ∨ Before a b
  files : ∃ ls, Listings D dirs ls ∧
    paths.Perm ((dirs.zip ls).flatMap fun d => (d.2.filter fun n => decide (∃ hat comp, ObsName n hat comp)).map (inDir d.1))

/-- the file at `path` has the given lines: the path ends in the name of an observation file, and the lines are those after the treatment that belongs to
the type; the path of the directory does not look like the name of a file -/
structure ReadAs (D : Disk) (path : Str) (file : List Str) : Prop where
  line : '\n' ∉ path
  treated : ∃ dir name hat comp, (path = name ∨ path = dir ++ '/' :: name ∧ ∀ k, ¬ Marked k dir) ∧ ObsName name hat comp ∧
    D.lines (fetchOf hat comp) path = .ok file

/-- the day announced by the name of a file -/
def NamedDay (path : Str) (d : Date) : Prop :=
  ∃ name y n, LastComponent path name ∧ NameSays name y n ∧ 1 ≤ y ∧ 1 ≤ n ∧ n ≤ 366 ∧ LegalDate d.year d.month d.day ∧
    dayNumber d.year d.month d.day = dayNumber y 1 1 + (n - 1)

/-! ## Observation files -/

/-- the position announced by a header: the first one; zeros if there is none -/
def HLine.pos : HLine → Option Pos
  | .position x y z => some ⟨(x : Rat) / 10000, (y : Rat) / 10000, (z : Rat) / 10000⟩
  | _ => none
def sitePos (hs : List HLine) : Pos := (hs.findSome? HLine.pos).getD ⟨0, 0, 0⟩

/-- a RINEX 2 field as an observable: blank fields have no value -/
def Field.obs2 : Field → Option Rat × Int × Int
  | .blank => (none, 0, 0)
  | .val n l s _ => (some ((n : Rat) / 1000), (l.getD 0 : Nat), (s.getD 0 : Nat))

/-- a RINEX 3 field as an observable: blank fields are zeros -/
def Field.obs3 : Field → Option Rat × Int × Int
  | .blank => (some 0, 0, 0)
  | .val n l s _ => (some ((n : Rat) / 1000), (l.getD 0 : Nat), (s.getD 0 : Nat))

/-- the items of an epoch of a RINEX 2 file -/
def Epoch.items (ts : List Str) (p : Pos) (e : Epoch) : List ObsItem :=
  e.sats.map fun s => ⟨some e.time, s.1.name, ts.zip (s.2.map Field.obs2), p, fun _ => some ts⟩

/-- the items of an epoch of a RINEX 3 file -/
def Ep3.items (m : TypeMap) (p : Pos) (e : Ep3) : List ObsItem :=
  e.sats.map fun s => ⟨some e.time, s.1.name3, ((m.of s.1.sys).getD []).zip (s.2.map Field.obs3), p, m.of⟩

/-- epochs only; events have no items -/
def Item3.items (m : TypeMap) (p : Pos) : Item3 → List ObsItem
  | .obs e => e.items m p
  | .event _ => []

/-- a RINEX 2 observation file: version line, other header lines, the types, at least two epochs in increasing order within 99999 s, events that leave the header values as they are -/
structure File2 (file : List Str) (v : Nat) (sys : Char) (hs : List HLine) (ts : List Str) (es : List Epoch) : Prop where
  version : v ∈ [200, 210, 211]
  text : ∃ before tls after hs1 hs2 f d endl body items, f ≠ '\n' ∧ sys ≠ '\n' ∧ WordsOk d ∧ hs = hs1 ++ hs2 ∧ file = before ++ tls ++ after ++ endl :: body ∧ TypeText tls ts ∧
    HeaderText v before (.version v f sys d :: hs1) ∧ HeaderText v after hs2 ∧
    (∀ x ∈ before, contains (c% "# / TYPES OF OBSERV") x = false) ∧
    (∀ l ∈ before ++ tls ++ after, contains (c% "END OF HEADER") l = false) ∧ labelOf endl = c% "END OF HEADER" ∧
    Written body (bodyLines items) ∧ es = epochsOf items ∧ BodyOk ts.length items
  header : ∀ h ∈ hs, h.Ok
  types : (∀ t ∈ ts, t.length = 2) ∧ ts.length < 1000000 ∧ ts.Nodup
  epochs : ∀ e ∈ es, e.sats ≠ []
  two : 2 ≤ es.length
  increasing : es.Pairwise fun a b => instant a.time < instant b.time
  span : ∀ a ∈ es, ∀ b ∈ es, instant b.time - instant a.time < 99999000000

/-- what the program knows of the RINEX 2 file at `path` -/
structure Opened2 (path : Str) (v : Nat) (sys : Char) (hs : List HLine) (ts : List Str) (es : List Epoch) (o : ObsIn) : Prop where
  filename : o.filename = path
  date : ∀ d, o.fileDate = some d ↔ NamedDay path d
  system : o.system = if sys = ' ' then 'G' else sys
  tofo : o.tofo = hs.findSome? HLine.saysFirstObs
  xyz : o.xyz = sitePos hs
  interval : ∃ i, MostFrequent i ((spacings (es.map (·.time))).take 10) ∧ Stored v i (.fin o.interval)
  items : o.items = es.flatMap (Epoch.items ts (sitePos hs))
  stop : o.stop = .ok ()

/-- a RINEX 3 observation file: version line, other header entries, epochs and events other than header events; `a` and `b` are the first two different
times (see `candidates`) -/
structure File3 (file : List Str) (v : Nat) (sys : Char) (es : List HEntry) (items : List Item3) (a b : DateTime) : Prop where
  version : v ∈ [300, 301, 302, 303]
  text : ∃ f d hdr endl body, f ≠ '\n' ∧ sys ≠ '\n' ∧ WordsOk d ∧ file = hdr ++ endl :: body ∧
    PhysicalLines hdr ((HEntry.line (.version v f sys d) :: es).map (HEntry.lines v)).flatten ∧
    (∀ l ∈ hdr, labelOf l ≠ c% "END OF HEADER") ∧ labelOf endl = c% "END OF HEADER" ∧ Written body (bodyLines3 items) ∧ ∀ l ∈ body, l ≠ []
  header : ∀ e ∈ es, e.Ok
  numbers : ∀ s n codes, HEntry.sys s n codes ∈ es → n = codes.length
  systems : ((typeMapOf v es).map (·.1)).Nodup ∧ typeMapOf v es ≠ []
  body : ∀ i ∈ items, i.Ok (typeMapOf v es)
  noHeaderEvents : ∀ e, Item3.event e ∈ items → e.flag ≠ 4
  times : ∃ rest, candidates (itemMarks items) = some a :: rest ∧ otherThan (some a) rest = some b
  legal : Legal a ∧ Legal b
  increasing : 0 < instant b - instant a
  span : instant b - instant a < 99999000000

/-- what the program knows of the RINEX 3 file at `path` -/
structure Opened3 (path : Str) (v : Nat) (sys : Char) (es : List HEntry) (items : List Item3) (a b : DateTime) (o : ObsIn) : Prop where
  filename : o.filename = path
  date : ∀ d, o.fileDate = some d ↔ NamedDay path d
  system : o.system = sys
  tofo : o.tofo = (linesOf es).findSome? HLine.saysFirstObs
  xyz : o.xyz = sitePos (linesOf es)
  interval : Stored v (instant b - instant a) (.fin o.interval)
  items : o.items = items.flatMap (Item3.items (typeMapOf v es) (sitePos (linesOf es)))
  stop : o.stop = .ok ()

/-! ## Coordinate files -/

/-- the lines of the coordinate file of the observation file at `path`: the file with the same name without compression suffix and with `.xyz` behind it;
no lines if there is none.  If there is one, it shows in the listing of one of the directories. -/
def CoordLines (D : Disk) (dirs : List Str) (path : Str) (xl : List XyzLine) : Prop :=
  (∀ l ∈ xl, l.Ok) ∧ ∃ stem base suffix hat comp, path = stem ++ suffix ∧ (stem = base ∨ ∃ dir, dir.getLast? ≠ some '/' ∧ stem = dir ++ '/' :: base) ∧
    ObsStem base hat ∧ ObsName (base ++ suffix) hat comp ∧
    (D.present (stem ++ c% ".xyz") = false ∧ xl = [] ∨
      D.present (stem ++ c% ".xyz") = true ∧ D.lines .text (stem ++ c% ".xyz") = .ok (xl.map XyzLine.render) ∧
        ∃ d ∈ dirs, ∃ l n, D.listing d = .ok l ∧ n ∈ l ∧ '/' ∉ n ∧ inDir d n = stem ++ c% ".xyz")

/-- the positions of a coordinate file, by epoch -/
def Positions (xl : List XyzLine) (xyz : Dict DateTime Pos) : Prop :=
  ∀ t, (xyz.get? t).map (fun p => [PyFloat.fin p.x, .fin p.y, .fin p.z]) = lastFor t xl

/-! ## Records -/

/-- the items left by the configured sampling interval -/
inductive Kept (cfg : Cfg) (o : ObsIn) : List ObsItem → Prop
  | all : (cfg.samplingInterval = none ∨ ∃ us, cfg.samplingInterval = some us ∧ (us = 0 ∨ (us : Rat) / 1000000 ≤ o.interval)) → Kept cfg o o.items
  | some (us flags) : cfg.samplingInterval = some us → us ≠ 0 → o.interval < (us : Rat) / 1000000 → Decimated o us o.items flags → Kept cfg o (leftOf flags)

/-! ## Navigation files -/

/-- the path ends in `.z` or `.gz`, in any case -/
def Packed (path : Str) : Prop := ∃ x suf, path = x ++ suf ∧ (SameCI suf (c% ".z") ∨ SameCI suf (c% ".gz"))

/-- the navigation file at `path` has the given lines -/
structure NavReadAs (D : Disk) (path : Str) (file : List Str) : Prop where
  line : '\n' ∉ path
  packed : Packed path → D.lines .gunzip path = .ok file
  plain : ¬ Packed path → D.lines .text path = .ok file

/-- a navigation file: header that announces version `w` (read by the reader of version `v`), then the messages -/
structure NavText (file : List Str) (w v : Nat) (ms : List NavMsg) : Prop where
  version : ((w : Rat) / 100, v) ∈ navReaders
  text : ∃ f sys d hs hdr endl body, WordsOk d ∧ file = hdr ++ endl :: body ∧ HeaderText v hdr (.version w f sys d :: hs) ∧ (∀ h ∈ hs, h.Ok) ∧
    (∀ l ∈ hdr, labelOf l ≠ c% "END OF HEADER") ∧ labelOf endl = c% "END OF HEADER" ∧
    (∀ m ∈ ms, Readable (decide (300 ≤ v)) v (.version w f sys d :: hs) m) ∧ NavBody (decide (300 ≤ v)) ms body

/-- the navigation file the program takes for the system and the day of `e`, and the directories searched -/
structure NavChoice (D : Disk) (cfg : Cfg) (c : Char) (e : DateTime) (f : Str) : Prop where
  dirs : ∀ d ∈ cfg.navDir, d ≠ [] ∧ d.getLast? ≠ some '/'
  choice : ∃ priority ls, cfg.navPriority.get? c = some priority ∧ Listings D cfg.navDir ls ∧
    Preferred (navCandidates (cfg.navDir.zip ls) c e) priority f

end Verif.Spec
