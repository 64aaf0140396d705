import Verif.Model.Main
import Verif.Spec.Writer
import Verif.Spec.Tec
/-!
# Specification: which records are written

(From the model only the inputs are used — `Prm`, `ObsIn`, `ObsItem`, `FileIn` — and `selectMessage`, which is specified in `Spec.Select`.)
-/
namespace Verif.Spec
open Verif.Py Verif.Model

/-- the records handed to the writer, in order -/
def writesOf : List WOp → List (Str × DateTime × List (Option FVal))
  | [] => []
  | .write s e v :: r => (s, e, v) :: writesOf r
  | _ :: r => writesOf r

/-- the value in a column of a record (the writer itself makes the first three columns) -/
def ColIs (vals : List (Option FVal)) (name : Str) (v : Option FVal) : Prop :=
  ∃ i kind, columns[i + 3]? = some (name, kind) ∧ vals[i]? = some v

def num (q : Rat) : Option FVal := some (.flt (.fin q))

/-- the satellite of an item -/
def SatIs (it : ObsItem) (c : Char) (n : Int) : Prop := ∃ r, it.sat = c :: r ∧ pyInt r = .ok n

/-- the ephemeris for the satellite at the time, and the time argument that goes with it -/
def EphemerisIs (P : Prm) (c : Char) (n : Int) (e : DateTime) (dt : Rat) (eph : List PyFloat) : Prop :=
  ∃ f m, P.load e.date c = .ok (f, m) ∧ selectMessage e c n [(c, m)] true = .ok (some (dt, eph))

/-- the position of the satellite -/
def SatAt (P : Prm) (c : Char) (n : Int) (e : DateTime) (p : Pos) : Prop :=
  ∃ dt eph, EphemerisIs P c n e dt eph ∧ P.satPos c eph dt = .ok p

/-- the position of the receiver for an item -/
def SiteAt (xyz : Dict DateTime Pos) (it : ObsItem) (e : DateTime) (p : Pos) : Prop :=
  xyz.get? e = some p ∨ xyz.get? e = none ∧ p = it.xyz

/-- the systems processed -/
def Processed (c : Char) : Prop := c = 'G' ∨ c = 'R' ∨ c = 'S' ∨ c = 'C' ∨ c = 'E'

/-- the position computation fails with an arithmetic error -/
def ArithError (P : Prm) (c : Char) (n : Int) (e : DateTime) : Prop :=
  ∃ dt eph, EphemerisIs P c n e dt eph ∧ (P.satPos c eph dt = .error .zeroDiv ∨ P.satPos c eph dt = .error .overflow)

/-- the direction of the satellite from the receiver at `x`: computed from its position; with `navIgnoreAbsence` zeros stand for an unknown position,
except for GLONASS -/
def DirectionIs (P : Prm) (c : Char) (n : Int) (e : DateTime) (x sp : Pos) (el az : Rat) : Prop :=
  (SatAt P c n e sp ∧ P.elAz x sp = .ok (el, az)) ∨
  (P.cfg.navIgnoreAbsence = true ∧ c ≠ 'R' ∧ (∀ p, ¬ SatAt P c n e p) ∧ sp = ⟨0, 0, 0⟩ ∧ el = 0 ∧ az = 0)

/-- three columns -/
def Cols3 (vals : List (Option FVal)) (a b c : Str) (p : Pos) : Prop :=
  ColIs vals a (num p.x) ∧ ColIs vals b (num p.y) ∧ ColIs vals c (num p.z)

/-- the geometric columns of a record -/
structure GeometryIs (P : Prm) (xyz : Dict DateTime Pos) (it : ObsItem) (c : Char) (n : Int) (e : DateTime) (vals : List (Option FVal))
    (x l sp : Pos) (el az : Rat) : Prop where
  site : SiteAt xyz it e x
  lbh : P.lbh x = .ok l
  direction : DirectionIs P c n e x sp el az
  visible : 0 ≤ el
  elCol : ColIs vals (c% "el") (num el)
  azCol : ColIs vals (c% "az") (num az)
  satCols : Cols3 vals (c% "sat.x") (c% "sat.y") (c% "sat.z") sp
  siteCols : Cols3 vals (c% "site.x") (c% "site.y") (c% "site.z") x
  lbhCols : Cols3 vals (c% "site.l") (c% "site.b") (c% "site.h") l

/-- the observable of a family: that of the alphabetically first code of the family in the record -/
def FamilyIs (r : ObsRec) (family : Str) (v : Option (Option Rat × Int × Int)) : Prop :=
  (v = none ∧ ∀ c ∈ r.keys, ¬ Member family c) ∨
  ∃ c x, v = some x ∧ r.get? c = some x ∧ Member family c ∧ ∀ c' ∈ r.keys, Member family c' → c' = c ∨ Before c c'

/-- value column, LLI column, family -/
def obsColumns : List (Str × Str × Str) := [
  (c% "p1", c% "p1.lli", c% "P1"), (c% "p2", c% "p2.lli", c% "P2"), (c% "c1", c% "c1.lli", c% "C1"), (c% "c2", c% "c2.lli", c% "C2"),
  (c% "c5", c% "c5.lli", c% "C5"), (c% "l1", c% "l1.lli", c% "L1"), (c% "l2", c% "l2.lli", c% "L2"), (c% "l5", c% "l5.lli", c% "L5"),
  (c% "s1", c% "s1.lli", c% "S1"), (c% "s2", c% "s2.lli", c% "S2"), (c% "s5", c% "s5.lli", c% "S5")]

/-- the GLONASS frequency number of the ephemeris used (0 for the other systems) -/
def FrequencyNumber (P : Prm) (c : Char) (n : Int) (e : DateTime) (k : Rat) : Prop :=
  c = 'R' ∧ (∃ dt eph, EphemerisIs P c n e dt eph ∧ eph[7]? = some (.fin k)) ∨ c ≠ 'R' ∧ k = 0

/-- TEC from two codes `p`, `q` (metres) on the frequencies `f`, `g` -/
def codeTec (p q f g : Rat) : Rat := 1 / (40308 / 1000) * (f ^ 2 * g ^ 2 / (f ^ 2 - g ^ 2)) * (q - p) / 10 ^ 16
/-- TEC from two phases (cycles) -/
def phaseTec (p q f g : Rat) : Rat := 1 / (40308 / 1000) * (f ^ 2 * g ^ 2 / (f ^ 2 - g ^ 2)) * (299792458 / f * p - 299792458 / g * q) / 10 ^ 16
/-- TEC from phase and code on one frequency -/
def singleTec (p q f : Rat) : Rat := f ^ 2 / (2 * (40308 / 1000)) * (q - p * 299792458 / f) / 10 ^ 16

/-- the value of the column `tec.xayb` -/
def TecIs (x y : Char) (v w f g : Option Rat) (r : Option Rat) : Prop :=
  (∃ p q a b, v = some p ∧ w = some q ∧ f = some a ∧ g = some b ∧ p ≠ 0 ∧ q ≠ 0 ∧ a ≠ 0 ∧ b ≠ 0 ∧
    r = some (if x = 'l' then if y = 'l' then phaseTec p q a b else singleTec p q a else codeTec p q a b)) ∨
  (¬ (∃ p q a b, v = some p ∧ w = some q ∧ f = some a ∧ g = some b ∧ p ≠ 0 ∧ q ≠ 0 ∧ a ≠ 0 ∧ b ≠ 0)) ∧ r = none

/-- the code counts as present: it has a value other than zero, or it stands for the loss of lock indicator of band 1, 2 or 5 and this is odd -/
def Observed (r : ObsRec) (o : Str) : Prop :=
  (∃ v i j, r.get? o = some (some v, i, j) ∧ v ≠ 0) ∨
  ∃ b v i j, b ∈ c% "125" ∧ o = ['L', 'L', 'I', b] ∧ FamilyIs r ['L', b] (some (v, i, j)) ∧ i % 2 = 1

/-- the validity column -/
def ValidityIs (types : List Str) (r : ObsRec) (v : Nat) : Prop :=
  ∀ k, v.testBit k = true ↔ ¬ (HasBit k types ↔ ∃ o, Observed r o ∧ ∃ n, bitFamily k = some n ∧ Member n o)

/-- the item is of a system processed and of the day of the file -/
def Considered (o : ObsIn) (it : ObsItem) (c : Char) (n : Int) (e : DateTime) : Prop :=
  SatIs it c n ∧ it.epoch = some e ∧ Processed c ∧ o.fileDate = some e.date

/-- all codes of the item belong to a family -/
def KnownCodes (it : ObsItem) (c : Char) : Prop :=
  ∃ types, it.types c = some types ∧ (∀ t ∈ types, Known t) ∧ ∀ t, Observed it.data t → Known t

/-- the item gives the record `vals` -/
structure Gives (P : Prm) (xyz : Dict DateTime Pos) (it : ObsItem) (c : Char) (n : Int) (e : DateTime) (vals : List (Option FVal)) : Prop where
  length : vals.length + 3 = columns.length
  known : KnownCodes it c
  geometry : ∃ x l sp el az, GeometryIs P xyz it c n e vals x l sp el az
  observables : ∀ col lli family, (col, lli, family) ∈ obsColumns → ∃ v, FamilyIs it.data family v ∧
    ColIs vals col (v.bind fun u => u.1.map fun q => .flt (.fin q)) ∧ ColIs vals lli (v.map fun u => .int u.2.1)
  validity : ∃ types v, it.types c = some types ∧ ValidityIs types it.data v ∧ ColIs vals (c% "validity") (some (.int v))
  tec : ∃ k, FrequencyNumber P c n e k ∧ (P.cfg.outFileModeText = true →
    ∀ x a y b kind, (['t', 'e', 'c', '.', x, a, y, b], kind) ∈ columns → ['t', 'e', 'c', '.', x, a, y, b] ∈ P.cfg.recFields →
      (['t', 'e', 'c', '.', x, a, y, b] = c% "tec.l8c8" → c% "tec.l1c1" ∈ P.cfg.recFields ∨ c% "tec.l2c2" ∈ P.cfg.recFields) →
      ∃ v w r, FamilyIs it.data [upperObs x, a] v ∧ FamilyIs it.data [upperObs y, b] w ∧
        TecIs x y (v.bind fun u => u.1) (w.bind fun u => u.1) (carrier c a k) (carrier c b k) r ∧
        ColIs vals ['t', 'e', 'c', '.', x, a, y, b] (r.map fun q => .flt (.fin q)))
  l8c8 : P.cfg.outFileModeText = true → c% "tec.l1c1" ∉ P.cfg.recFields → c% "tec.l2c2" ∉ P.cfg.recFields → ColIs vals (c% "tec.l8c8") none

/-- no navigation file of the day for the system -/
def NoNavigation (P : Prm) (d : Date) (c : Char) : Prop := P.load d c = .error .rinex ∨ P.load d c = .error .nm

/-- the records of a file, in order: `RecordsOf seen items records`, where the systems in `seen` occurred before.  The first item of a system without
navigation file is lost. -/
inductive RecordsOf (P : Prm) (o : ObsIn) (xyz : Dict DateTime Pos) : List Char → List ObsItem → List (Str × DateTime × List (Option FVal)) → Prop
  | nil (seen) : RecordsOf P o xyz seen [] []
  | other (seen it its ws) : (∀ c n e, ¬ Considered o it c n e) → RecordsOf P o xyz seen its ws → RecordsOf P o xyz seen (it :: its) ws
  | lost (seen it its ws c n e) : Considered o it c n e → c ∉ seen → NoNavigation P e.date c → RecordsOf P o xyz (c :: seen) its ws →
      RecordsOf P o xyz seen (it :: its) ws
  | none (seen it its ws c n e) : Considered o it c n e → (c ∈ seen ∨ ∃ m, P.load e.date c = .ok m) → (∀ vals, ¬ Gives P xyz it c n e vals) →
      RecordsOf P o xyz (c :: seen) its ws → RecordsOf P o xyz seen (it :: its) ws
  | record (seen it its ws c n e vals) : Considered o it c n e → (c ∈ seen ∨ ∃ m, P.load e.date c = .ok m) → Gives P xyz it c n e vals →
      RecordsOf P o xyz (c :: seen) its ws → RecordsOf P o xyz seen (it :: its) ((it.sat, e, vals) :: ws)

/-- which items a sampling interval `dt` (microseconds) leaves: `flags` are the items with "kept" or not.  `LastKept` is the epoch of the last item kept. -/
def LastKept (o : ObsIn) (flags : List (ObsItem × Bool)) (t : DateTime) : Prop :=
  ∃ pre it post, flags = pre ++ (it, true) :: post ∧ (∃ c n, Considered o it c n t) ∧
    ∀ it' b, (it', b) ∈ post → (∃ c n e, Considered o it' c n e) → b = false

/-- an item is kept iff nothing was kept before, or it has the epoch of the last item kept, or comes at least `dt` after it -/
def KeepRule (o : ObsIn) (dt : Int) (pre : List (ObsItem × Bool)) (e : DateTime) : Prop :=
  (∀ t, ¬ LastKept o pre t) ∨ ∃ t, LastKept o pre t ∧ (e = t ∨ dt ≤ instant e - instant t)

/-- decimated items: `flags` lists the items with their flags; items that are not considered anyway are flagged -/
structure Decimated (o : ObsIn) (dt : Int) (items : List ObsItem) (flags : List (ObsItem × Bool)) : Prop where
  items : flags.map (·.1) = items
  rule : ∀ pre it b post c n e, flags = pre ++ (it, b) :: post → Considered o it c n e → (b = true ↔ KeepRule o dt pre e)

/-- the items left -/
def leftOf (flags : List (ObsItem × Bool)) : List ObsItem := (flags.filter (·.2)).map (·.1)

/-- the file is processed: observations of a system processed or of several systems, and times of the GPS time scale -/
def Accepted (o : ObsIn) (t : DateTime) : Prop := (Processed o.system ∨ o.system = 'M') ∧ o.tofo = some (t, c% "GPS")

/-- the file is left out: it cannot be opened, or its system or time system is not supported -/
def LeftOut (f : FileIn) : Prop :=
  f.opened = .error .rinex ∨ f.opened = .error .uncompress ∨
  ∃ o, f.opened = .ok o ∧ ((¬ Processed o.system ∧ o.system ≠ 'M') ∨ ∃ t s, o.tofo = some (t, s) ∧ s ≠ c% "GPS")

/-- an error that the loop handles for navigation files and numerical functions -/
def Handled (er : PyErr) : Prop := er = .rinex ∨ er = .nm
def Arithmetic (er : PyErr) : Prop := er = .zeroDiv ∨ er = .overflow

/-- the format string of the records is that of a list of columns -/
def FormatOk (P : Prm) : Prop :=
  ∃ fields, fields ≠ [] ∧ (∀ f ∈ fields, ∃ k, (f, k) ∈ columns) ∧
    ∃ fort, composeRecFormat (formatDef P.dtLen) fields = .ok (fields, P.cfg.recFormat, fort)

/-- the reasons for which a file can stop the program: all of them are outside of the loop itself -/
inductive Cause (P : Prm) (f : FileIn) (er : PyErr) : Prop
  | opening : f.opened = .error er → er ≠ .rinex → er ≠ .uncompress → Cause P f er
  | start (o) : f.opened = .ok o → o.tofo = none → er = .type → Cause P f er
  | xyzFile : f.xyzData = .error er → Cause P f er
  | reading (o) : f.opened = .ok o → o.stop = .error er → er ≠ .rinex → Cause P f er
  | noSat (o it) : f.opened = .ok o → it ∈ o.items → it.sat = [] → er = .index → Cause P f er
  | satName (o it a r) : f.opened = .ok o → it ∈ o.items → it.sat = a :: r → pyInt r = .error er → Cause P f er
  | noEpoch (o it) : f.opened = .ok o → it ∈ o.items → it.epoch = none → er = .attribute → Cause P f er
  | geodetic (o) : f.opened = .ok o → P.lbh o.xyz = .error er → Cause P f er
  | site (o xyz it c n e x) : f.opened = .ok o → f.xyzData = .ok xyz → it ∈ o.items → Considered o it c n e → SiteAt xyz it e x → P.lbh x = .error er → Cause P f er
  | load (o it c n e) : f.opened = .ok o → it ∈ o.items → Considered o it c n e → P.load e.date c = .error er → ¬ Handled er → Cause P f er
  | noMessage (o it c n e file m) : f.opened = .ok o → it ∈ o.items → Considered o it c n e → P.load e.date c = .ok (file, m) → m.get? n = some [] →
      er = .index → Cause P f er
  | satellite (o it c n e dt eph) : f.opened = .ok o → it ∈ o.items → Considered o it c n e → EphemerisIs P c n e dt eph → P.satPos c eph dt = .error er →
      ¬ Arithmetic er → Cause P f er
  | frequency (o it n e dt eph) : f.opened = .ok o → it ∈ o.items → Considered o it 'R' n e → EphemerisIs P 'R' n e dt eph →
      (∀ k, eph[7]? ≠ some (.fin k)) → Cause P f er
  | direction (o xyz it c n e x p) : f.opened = .ok o → f.xyzData = .ok xyz → it ∈ o.items → Considered o it c n e → SiteAt xyz it e x → SatAt P c n e p →
      P.elAz x p = .error er → ¬ Arithmetic er → Cause P f er
  | types (o it c n e) : f.opened = .ok o → it ∈ o.items → Considered o it c n e → it.types c = none → er = .key → Cause P f er
  | format : ¬ FormatOk P → Cause P f er
  | interval (o) : f.opened = .ok o → o.interval ≤ 0 → Cause P f er

/-! ## The comment at the beginning of an output file -/

/-- how the satellite is described: with the frequency number (GLONASS) or the number of the ranging code (SBAS) -/
def SatDefIs (P : Prm) (sat : Str) (e : DateTime) (d : Str) : Prop :=
  ∃ c r n, sat = c :: r ∧ pyInt r = .ok n ∧
    (c = 'R' ∧ (∃ k, FrequencyNumber P c n e k ∧ d = sat ++ (c% " (k = ") ++ P.env.repr k ++ (c% ")")) ∨
     c = 'S' ∧ d = sat ++ (c% " (PRN ") ++ intStr (n + 100) ++ (c% ")") ∨
     c ≠ 'R' ∧ c ≠ 'S' ∧ d = sat)

/-- the navigation file of the system on the day, if there is one -/
def NavSourceIs (P : Prm) (sat : Str) (d : Date) (nav : Option Str) : Prop :=
  ∃ c r, sat = c :: r ∧ ((∃ f m, P.load d c = .ok (f, m) ∧ nav = some f) ∨ (∀ f m, P.load d c ≠ .ok (f, m)) ∧ nav = none)

/-- the epochs do not go back, and do not come before the start of the file -/
def InOrder (o : ObsIn) (t : DateTime) : Prop :=
  (∀ it ∈ o.items, ∀ e, it.epoch = some e → instant t ≤ instant e) ∧
  o.items.Pairwise fun a b => ∀ e f, a.epoch = some e → b.epoch = some f → instant e ≤ instant f

/-- the sampling interval in seconds; not used if it is smaller than the interval of the file -/
def samplingShown (P : Prm) (o : ObsIn) : Str :=
  P.env.repr (((P.cfg.samplingInterval.getD 0 : Int) : Rat) / 1000000) ++
    if ((P.cfg.samplingInterval.getD 0 : Int) : Rat) / 1000000 < o.interval then c% " (not used)." else []

end Verif.Spec
