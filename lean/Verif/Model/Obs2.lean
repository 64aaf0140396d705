import Verif.Model.Header
/-!
# `/repo/tecs/rinex/v2/o.py`: the RINEX 2 observation reader

`self._fobj` is the list of the remaining lines.  `read_records` is a generator: the model returns the list of yielded
records, each with the state of the object at the time of the yield, and how the generator stopped.
-/
namespace Verif.Model
open Verif.Py

/-- `Rinex._next_rec`, `/repo/tecs/rinex/basic.py:97-119` -/
def nextRec : List Str → Except PyErr (Str × List Str)
  | [] => .error .rinex
  | l :: ls => .ok (rstrip l, ls)

/-- an observation: value (or `None`), loss of lock indicator, signal strength (`/repo/tecs/rinex/v2/o.py:127`) -/
abbrev ObsVal := Option PyFloat × Nat × Nat

/-- one indicator column (`/repo/tecs/rinex/v2/o.py:102-120`): a digit, or 0 -/
def indicator (val : Str) (k : Nat) : Nat :=
  match val[k]? with
  | some c => if isDigit c then digitVal c else 0
  | none => 0

/-- `_get_val(rec, i, rlen)`, `/repo/tecs/rinex/v2/o.py:71-127` -/
def getVal (rec : Str) (i rlen : Nat) : Except PyErr ObsVal :=
  let val := slice rec i (i + rlen)
  if val ≠ [] ∧ val ≠ List.replicate val.length ' ' then
    match parseFloat (val.take 14) with
    | none => .error .rinex
    | some v =>
      let val := val.drop 14
      .ok (some v, indicator val 0, indicator val 1)
  else .ok (none, 0, 0)

/-- `_get_prn(rec, i, cur_epoch)`, `/repo/tecs/rinex/v2/o.py:129-155` -/
def getPrn (rec : Str) (i : Nat) : Except PyErr Str :=
  match slice rec i (i + 3) with
  | [] => .error .rinex
  | c :: num =>
    let sys := if upperC c = ' ' then 'G' else upperC c
    match parseInt num with
    | none => .error .rinex
    | some n => .ok (sys :: intStrZ 2 n)

/-- `for i in range(32, stop, 3): prns.append(self._get_prn(epoch, i, cur_epoch))`, `/repo/tecs/rinex/v2/o.py:413-415`, `423-425`, `432-434`, `438-440` -/
def getPrns (rec : Str) : List Nat → Except PyErr (List Str)
  | [] => .ok []
  | i :: is => do
    let p ← getPrn rec i
    let ps ← getPrns rec is
    pure (p :: ps)

/-- result of `read_epoch` (`/repo/tecs/rinex/v2/o.py:361`, `447`): (epoch, flag, number of satellites, PRNs); the clock offset is not used by anybody -/
structure Epoch2 where
  epoch : Option DateTime
  flag : Int
  num : Int
  prns : List Str
  deriving DecidableEq

/-- the `while num_compl_lines` loop, `/repo/tecs/rinex/v2/o.py:419-425` -/
def fullPrnLines : Nat → List Str → Except PyErr (List Str × List Str)
  | 0, ls => .ok ([], ls)
  | k + 1, ls => do
    let (l, ls) ← nextRec ls
    let ps ← getPrns l (pyRange 32 66 3)
    let (qs, ls) ← fullPrnLines k ls
    pure (ps ++ qs, ls)

/-- the satellite list, `/repo/tecs/rinex/v2/o.py:402-440` -/
def readPrns (epoch : Str) (num : Int) (ls : List Str) : Except PyErr (List Str × List Str) :=
  if num > 12 then do
    let full := num.toNat / 12
    let rest := num.toNat - full * 12
    let p0 ← getPrns epoch (pyRange 32 66 3)
    let (p1, ls) ← fullPrnLines (full - 1) ls
    if rest ≠ 0 then do
      let (l, ls) ← nextRec ls
      let p2 ← getPrns l (pyRange 32 (32 + rest * 3 - 2) 3)
      pure (p0 ++ p1 ++ p2, ls)
    else pure (p0 ++ p1, ls)
  else do
    let ps ← getPrns epoch (pyRange 32 (32 + 3 * num - 2).toNat 3)
    pure (ps, ls)

/-- the date of an epoch line, `/repo/tecs/rinex/v2/o.py:368-386` -/
def epochDate (epoch : Str) : Except PyErr DateTime :=
  catching (do
    let d ← mapInt ((pyRange 0 13 3).map fun i => slice epoch i (i + 3))
    let sec ← pyFloat (slice epoch 15 26)
    let (s, us) ← secSplitWith (· * 1000000) 5 sec
    validateEpoch (d ++ [s, us])) [.index, .value] (.error .rinex)

/-- `read_epoch(epoch)`, `/repo/tecs/rinex/v2/o.py:327-447`; `ls` = the lines after the epoch line.  The order of evaluation of the source is
kept: the satellite number is read after the date. -/
def readEpoch (epoch : Str) (ls : List Str) : Except PyErr (Epoch2 × List Str) :=
  match parseInt (slice epoch 26 29) with
  | none => .error .rinex
  | some flag =>
    if flag > 1 then
      match parseInt (slice epoch 29 32) with
      | none => .error .rinex
      | some n => .ok (⟨none, flag, n, []⟩, ls)
    else do
      let t ← epochDate epoch
      match parseInt (slice epoch 29 32) with
      | none => .error .rinex
      | some n => do
        let (prns, ls) ← readPrns epoch n ls
        if n ≠ prns.length then .error .rinex
        else .ok (⟨some t, flag, n, prns⟩, ls)

/-- `while sat_num > 0: ... self._next_rec(...)` collecting the lines, `/repo/tecs/rinex/v2/o.py:478-481`, `489-492`, `505-509` -/
def takeLines : Nat → List Str → Except PyErr (List Str × List Str)
  | 0, ls => .ok ([], ls)
  | k + 1, ls => do
    let (l, ls) ← nextRec ls
    let (r, ls) ← takeLines k ls
    pure (l :: r, ls)

/-- the loop of `_det_lines_per_rec`, `/repo/tecs/rinex/v2/o.py:609-615` -/
def linesPerRecGo : Nat → Int → List Nat
  | 0, _ => []
  | k + 1, n =>
    let n := n - 5
    (if n < 0 then (n + 5).toNat else 5) :: linesPerRecGo k n

/-- `_det_lines_per_rec`, `/repo/tecs/rinex/v2/o.py:596-620`; `math.ceil(obs_num / 5.)` -/
def linesPerRec (obsNum : Nat) : List Nat := linesPerRecGo ((obsNum + 4) / 5) obsNum

/-- length of a field (`REC_LEN`, `/repo/tecs/rinex/v2/o.py:61`, `631`, `644`) -/
def recLen : Nat := 16

/-- `for i in range(0, rend, rstep)`: the fields of one line, `/repo/tecs/rinex/v2/o.py:525-532` -/
def readFields (rec : Str) : List Nat → Except PyErr (List ObsVal)
  | [] => .ok []
  | i :: is => do
    let v ← getVal rec i recLen
    let vs ← readFields rec is
    pure (v :: vs)

/-- `for n in self.lines_per_rec`: the lines of one satellite, `/repo/tecs/rinex/v2/o.py:522-532` -/
def readSatLines : List Nat → List Str → Except PyErr (List ObsVal × List Str)
  | [], ls => .ok ([], ls)
  | n :: ns, ls => do
    let (rec, ls) ← nextRec ls
    let vs ← readFields rec (pyRange 0 (n * recLen - (recLen - 1)) recLen)
    let (ws, ls) ← readSatLines ns ls
    pure (vs ++ ws, ls)

/-- `types_n_vals`, `/repo/tecs/rinex/v2/o.py:534` -/
abbrev ObsDict := Dict Str ObsVal

/-- filling `types_n_vals`, `/repo/tecs/rinex/v2/o.py:534-539`; IndexError when there are more values than types -/
def zipTypes : List Str → List ObsVal → ObsDict → Except PyErr ObsDict
  | _, [], d => .ok d
  | [], _ :: _, _ => .error .index
  | t :: ts, v :: vs, d => zipTypes ts vs (d.set t v)

/-- a yielded record `(epoch, satellite, values)`, `/repo/tecs/rinex/v2/o.py:548` -/
structure Rec2 where
  epoch : DateTime
  sat : Str
  data : ObsDict
  deriving DecidableEq

/-- mutable state of the reader: header values and the preceding epoch (`/repo/tecs/rinex/v2/o.py:560`, `578-581`) -/
structure St2 where
  hdr : HeaderVals
  preceding : Option DateTime
  deriving DecidableEq

/-- fixed after construction: class constant and `properties['obs types']`, `lines_per_rec` (`/repo/tecs/rinex/v2/o.py:60`, `562-566`) -/
structure Cfg2 where
  version : Nat
  types : List Str
  lines : List Nat
  deriving DecidableEq

/-- `for cur_prn in prns`, `/repo/tecs/rinex/v2/o.py:518-548`: the records yielded, and the remaining lines or the error -/
def readSats (c : Cfg2) (st : St2) (t : DateTime) :
    List Str → List Str → List (Rec2 × St2) × Except PyErr (List Str)
  | [], ls => ([], .ok ls)
  | prn :: prns, ls =>
    match readSatLines c.lines ls with
    | .error e => ([], .error e)
    | .ok (data, ls) =>
      match zipTypes c.types data [] with
      | .error e => ([], .error e)
      | .ok d =>
        let (ys, r) := readSats c st t prns ls
        if st.preceding = some t then (ys, r)
        else ((⟨t, prn, d⟩, st) :: ys, r)

/-- one turn of `for line in self._fobj` in `read_records`, `/repo/tecs/rinex/v2/o.py:459-550` -/
def readBlock (c : Cfg2) (st : St2) (line : Str) (ls : List Str) :
    List (Rec2 × St2) × Except PyErr (St2 × List Str) :=
  match readEpoch (rstrip line) ls with
  | .error e => ([], .error e)
  | .ok (ep, ls) =>
    if ep.flag = 3 ∨ ep.flag = 4 then
      match takeLines ep.num.toNat ls with
      | .error e => ([], .error e)
      | .ok (hl, ls) =>
        match parseHeader c.version hl st.hdr with
        | .error e => ([], .error e)
        | .ok h => ([], .ok ({ st with hdr := h }, ls))
    else if ep.flag > 1 then
      match takeLines ep.num.toNat ls with
      | .error e => ([], .error e)
      | .ok (_, ls) => ([], .ok (st, ls))
    else
      match ep.epoch with
      | none => ([], .error .type)   -- cannot happen: flags ≤ 1 come with an epoch
      | some t =>
        match readSats c st t ep.prns ls with
        | (ys, .error e) => (ys, .error e)
        | (ys, .ok ls) => (ys, .ok ({ st with preceding := some t }, ls))

/-- a finished run of the generator `read_records` (`/repo/tecs/rinex/v2/o.py:449-550`) -/
structure Run2 where
  yields : List (Rec2 × St2)
  stop : Except PyErr St2

/-- `read_records`, `/repo/tecs/rinex/v2/o.py:449-550`; every turn consumes at least one line, `fuel` bounds the number of turns -/
def readLoop (c : Cfg2) : Nat → St2 → List Str → Run2
  | _, st, [] => ⟨[], .ok st⟩
  | 0, st, _ :: _ => ⟨[], .ok st⟩
  | fuel + 1, st, line :: ls =>
    match readBlock c st line ls with
    | (ys, .error e) => ⟨ys, .error e⟩
    | (ys, .ok (st, ls)) =>
      let r := readLoop c fuel st ls
      ⟨ys ++ r.yields, r.stop⟩

/-- `read_records` on the remaining lines of the file, `/repo/tecs/rinex/v2/o.py:449-550` -/
def readRecords2 (c : Cfg2) (st : St2) (ls : List Str) : Run2 := readLoop c ls.length st ls

/-! ## `get_interval` -/

/-- stable descending insertion, `/repo/tecs/rinex/v2/o.py:226` (`list.sort(key=..., reverse=True)` keeps the order of equal keys) -/
def insertDesc (key : Int → Nat) (x : Int) : List Int → List Int
  | [] => [x]
  | y :: ys => if key y ≤ key x then x :: y :: ys else y :: insertDesc key x ys

/-- `tmp.sort(key=..., reverse=True)`, `/repo/tecs/rinex/v2/o.py:226` -/
def sortDesc (key : Int → Nat) : List Int → List Int
  | [] => []
  | x :: xs => insertDesc key x (sortDesc key xs)

/-- the dictionary of counts, `/repo/tecs/rinex/v2/o.py:217-223` -/
def countDict : List Int → Dict Int Nat → Dict Int Nat
  | [], d => d
  | x :: xs, d =>
    match d.get? x with
    | none => countDict xs (d.set x 1)
    | some n => countDict xs (d.set x (n + 1))

/-- choice of the interval among the deltas, `/repo/tecs/rinex/v2/o.py:213-228` -/
def pickInterval (deltas : List Int) : Except PyErr Int :=
  match deltas with
  | [] => .error .index
  | d :: ds =>
    if ds.all (· = d) then .ok d
    else
      let dict := countDict (d :: ds) []
      match sortDesc (fun k => (dict.get? k).getD 0) dict.keys with
      | [] => .error .index
      | k :: _ => .ok k

/-- how the collection of the deltas ended (`/repo/tecs/rinex/v2/o.py:181`, `203`) -/
inductive Collected where
  | enough (deltas : List Int) (st : St2)
  | exhausted (deltas : List Int)
  deriving DecidableEq

/-- the loop `while epoch_count < n`, `/repo/tecs/rinex/v2/o.py:181-197`, over the yields; deltas in microseconds, accumulated in reverse.
`enough` = the count reached `n` (the generator is closed in the state of the last yield). -/
def collectDeltas (n : Nat) : List (Rec2 × St2) → Option DateTime → List Int → St2 → Collected
  | [], _, deltas, _ => .exhausted deltas.reverse
  | (r, st) :: ys, epoch, deltas, _ =>
    match epoch with
    | none => collectDeltas n ys (some r.epoch) deltas st
    | some e =>
      if e = r.epoch then collectDeltas n ys (some e) deltas st
      else
        let deltas := r.epoch.sub e :: deltas
        if deltas.length < n then collectDeltas n ys (some r.epoch) deltas st
        else .enough deltas.reverse st

/-- `get_interval(n)` without the final rewinding, `/repo/tecs/rinex/v2/o.py:157-228`: the interval (microseconds) and the state left behind.
`n > 0` is assumed (the only call uses 10). -/
def getInterval (n : Nat) (st : St2) (run : Run2) : Except PyErr (Int × St2) :=
  match collectDeltas n run.yields none [] st with
  | .enough deltas st => do
    let i ← pickInterval deltas
    pure (i, st)
  | .exhausted deltas =>
    match run.stop with
    | .error e => .error e
    | .ok st =>
      if deltas = [] then .error .rinex
      else do
        let i ← pickInterval deltas
        pure (i, st)

/-- rewinding, `/repo/tecs/rinex/v2/o.py:230-234`: the lines after the first line whose label is END OF HEADER -/
def afterHeader : List Str → List Str
  | [] => []
  | l :: ls => if headerLabel l = lblEnd then ls else afterHeader ls

/-! ## Observation types -/

/-- `get_o_types`, `/repo/tecs/rinex/v2/o.py:249-280` (the regular expression only triggers a warning) -/
def getOTypes (r : Str) (n l : Nat) : List Str :=
  (pyRange 0 (n * l) l).map fun i =>
    let t := slice r i (i + l)
    t.drop (t.length - 2)

/-- the complete lines, `/repo/tecs/rinex/v2/o.py:300-302` -/
def fullTypeLines (header : List Str) (idx : Nat) : Nat → Nat → Except PyErr (List Str)
  | _, 0 => .ok []
  | cur, k + 1 =>
    match header[idx + cur]? with
    | none => .error .index
    | some l => do
      let r ← fullTypeLines header idx (cur + 1) k
      pure (getOTypes (slice l 6 60) 9 6 ++ r)

/-- index of the first line containing the label, `/repo/tecs/rinex/v2/o.py:282-285`, `65` -/
def findTypesLine : List Str → Nat → Option (Nat × Str)
  | [], _ => none
  | l :: ls, i => if contains (c% "# / TYPES OF OBSERV") l then some (i, l) else findTypesLine ls (i + 1)

/-- the types of all lines, `/repo/tecs/rinex/v2/o.py:295-311`: `rec` is the first line, at index `idx` -/
def typesList (header : List Str) (idx : Nat) (rec : Str) (num : Int) : Except PyErr (List Str) :=
  if num > 9 then
    let full := num.toNat / 9
    match fullTypeLines header idx 0 full with
    | .error e => .error e
    | .ok t =>
      if num.toNat % 9 ≠ 0 then
        let rest := num.toNat - full * 9
        match header[idx + full]? with
        | none => .error .index
        | some l => .ok (t ++ getOTypes (slice l 6 (6 + rest * 6)) rest 6)
      else .ok t
  else .ok (getOTypes (slice rec 6 (6 + num * 6).toNat) num.toNat 6)

/-- `set_obs_num_types(header)`, `/repo/tecs/rinex/v2/o.py:238-320` -/
def obsTypes (header : List Str) : Except PyErr (List Str) :=
  match findTypesLine header 0 with
  | none => .ok []
  | some (idx, rec) =>
    match parseInt (rec.take 6) with
    | none => .error .rinex
    | some num =>
      match typesList header idx rec num with
      | .error e => .error e
      | .ok types => if num ≠ types.length then .error .rinex else .ok types

/-- header lines: everything before the first line containing END OF HEADER (`/repo/tecs/rinex/v2/o.py:568-572`), and the lines after it -/
def splitHeader2 : List Str → List Str × List Str
  | [] => ([], [])
  | l :: ls =>
    if contains lblEnd l then ([], ls)
    else
      let (h, r) := splitHeader2 ls
      (l :: h, r)

/-- the number of an exact value in thousandths, rounded: `'{:.3f}'` (used in `/repo/tecs/rinex/v2/o.py:594`) -/
def fmtFixed3 (q : Rat) : Str :=
  let m := roundHalfEven (q * 1000)
  let a := m.natAbs
  (if q < 0 then ['-'] else []) ++ natStr (a / 1000) ++ ['.'] ++ zfill 3 (natStr (a % 1000))

/-- an opened RINEX 2 file (`/repo/tecs/rinex/v2/o.py:552-594`) -/
structure Obs2 where
  cfg : Cfg2
  st : St2
  rest : List Str

/-- `Obs2.__init__`, `/repo/tecs/rinex/v2/o.py:552-594`, for the class with the given `VERSION` -/
def openObs2 (version : Nat) (file : List Str) : Except PyErr Obs2 := do
  let (header, body) := splitHeader2 file
  let types ← obsTypes header
  let cfg : Cfg2 := ⟨version, types, linesPerRec types.length⟩
  let h ← parseHeader version header .empty
  let st : St2 := ⟨h, none⟩
  let (dt, st) ← getInterval 10 st (readRecords2 cfg st body)
  let iv ← parseInterval version (padLeft 10 (fmtFixed3 ((dt : Rat) / 1000000)))
  pure ⟨cfg, { st with hdr := { st.hdr with interval := some iv } }, afterHeader file⟩

/-- the records delivered by `read_records()` of a freshly opened file (`/repo/tecs/rinex/v2/o.py:449-550`) -/
def Obs2.records (o : Obs2) : Run2 := readRecords2 o.cfg o.st o.rest

end Verif.Model
