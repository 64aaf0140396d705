import Verif.Model.Obs2
/-!
# `/repo/tecs/rinex/v3/o.py`: the RINEX 3 observation reader
-/
namespace Verif.Model
open Verif.Py

/-- `line[0] == '>'`, `/repo/tecs/rinex/v3/o.py:149`, `194`, `332`; IndexError on an empty line (lines of a text file are never empty) -/
def isEpochLine : Str → Except PyErr Bool
  | [] => .error .index
  | c :: _ => .ok (c = '>')

/-- the date of an epoch line, `/repo/tecs/rinex/v3/o.py:198-213`: `None` when a ValueError occurs -/
def epochDate3 (line : Str) : Except PyErr (Option DateTime) :=
  catching (do
    let sec ← pyFloat (slice line 18 29)
    let (s, us) ← sec2secMs sec
    let l ← mapInt (slice line 1 6 :: (pyRange 6 17 3).map fun i => slice line i (i + 3))
    let t ← validateEpoch (l ++ [s, us])
    pure (some t)) [.value] (.ok none)

/-- result of `_parse_epoch_record`, `/repo/tecs/rinex/v3/o.py:235` (the clock offset is not used by anybody) -/
structure Epoch3 where
  epoch : Option DateTime
  flag : Int
  num : Int
  deriving DecidableEq

/-- the clock offset, `/repo/tecs/rinex/v3/o.py:228-233`: ValueError is caught, an infinite offset raises OverflowError.
(`timedelta` overflow for offsets beyond 10^14 seconds is not modelled.) -/
def clockOffset3 (line : Str) : Except PyErr Unit :=
  catching (do
    let sec ← pyFloat (line.drop 42)
    let _ ← sec2secMs sec
    pure ()) [.value] (.ok ())

/-- the epoch flag, `/repo/tecs/rinex/v3/o.py:215-219` -/
def epochFlag3 (line : Str) : Except PyErr Int :=
  match line[31]? with
  | none => .error .rinex
  | some c => match parseInt [c] with
    | none => .error .rinex
    | some f => .ok f

/-- `_parse_epoch_record`, `/repo/tecs/rinex/v3/o.py:171-235` -/
def parseEpoch3 (line : Str) : Except PyErr Epoch3 :=
  match isEpochLine line with
  | .error e => .error e
  | .ok false => .error .rinex
  | .ok true =>
    match epochDate3 line with
    | .error e => .error e
    | .ok t =>
      match epochFlag3 line with
      | .error e => .error e
      | .ok flag =>
        match parseInt (slice line 32 35) with
        | none => .error .rinex
        | some num =>
          match clockOffset3 line with
          | .error e => .error e
          | .ok _ => .ok ⟨t, flag, num⟩

/-- an observation of a RINEX 3 record, `/repo/tecs/rinex/v3/o.py:299` -/
abbrev ObsVal3 := PyFloat × Int × Int

/-- indicator column, `/repo/tecs/rinex/v3/o.py:287-297` -/
def indicator3 (chunk : Str) (i : Nat) : Int :=
  match chunk[i]? with
  | none => 0
  | some v => if isSpace v then 0 else (parseInt [v]).getD 0

/-- one field, `/repo/tecs/rinex/v3/o.py:274-299` -/
def parseChunk3 (chunk : Str) : ObsVal3 :=
  if chunk = [] ∨ isSpaceStr chunk = true then (.fin 0, 0, 0)
  else
    let val := chunk.take 14
    let v : PyFloat := if val = [] ∨ isSpaceStr val = true then .fin 0 else (parseFloat val).getD (.fin 0)
    (v, indicator3 chunk 14, indicator3 chunk 15)

/-- `_det_data_chunks`, `/repo/tecs/rinex/v3/o.py:81-99`: ValueError on `max([])` -/
def dataChunks3 (m : SysMap) : Except PyErr (List (Nat × Nat)) :=
  match m.map (fun p => p.2.length) with
  | [] => .error .value
  | n :: ns =>
    let mx := ns.foldl max n
    let steps := pyRange 3 (mx * 16 + 16) 16
    .ok (steps.zip steps.tail)

/-- `for n in range(obs_num)`: the fields of a satellite line, `/repo/tecs/rinex/v3/o.py:270-299` -/
def parseChunks3 (record : Str) (chunks : List (Nat × Nat)) : List Nat → Except PyErr (List ObsVal3)
  | [] => .ok []
  | n :: ns =>
    match chunks[n]? with
    | none => .error .index
    | some (s, e) =>
      match parseChunks3 record chunks ns with
      | .error er => .error er
      | .ok r => .ok (parseChunk3 (slice record s e) :: r)

/-- `_parse_obs_record`, `/repo/tecs/rinex/v3/o.py:237-301` -/
def parseObs3 (m : SysMap) (chunks : List (Nat × Nat)) (record : Str) : Except PyErr (Str × List ObsVal3) :=
  match replaceChar ' ' '0' (record.take 3) with
  | [] => .error .rinex
  | c :: sat =>
    match m.get? [c] with
    | none => .error .rinex
    | some types =>
      match parseChunks3 record chunks (List.range types.length) with
      | .error e => .error e
      | .ok d => .ok (c :: sat, d)

/-- `rec`, `/repo/tecs/rinex/v3/o.py:363` -/
abbrev ObsDict3 := Dict Str ObsVal3

/-- `for i, val in enumerate(dataset): rec[sat_obs[i]] = val`, `/repo/tecs/rinex/v3/o.py:363-365` -/
def zipTypes3 : List Str → List ObsVal3 → ObsDict3 → Except PyErr ObsDict3
  | _, [], d => .ok d
  | [], _ :: _, _ => .error .index
  | t :: ts, v :: vs, d => zipTypes3 ts vs (d.set t v)

/-- a yielded record, `/repo/tecs/rinex/v3/o.py:367`; the epoch is `None` when the date of the epoch line was unreadable -/
structure Rec3 where
  epoch : Option DateTime
  sat : Str
  data : ObsDict3
  deriving DecidableEq

/-- attributes of the reader object, `/repo/tecs/rinex/v3/o.py:57-62` -/
structure Obj3 where
  hdr : HeaderVals
  sys : SysMap
  deriving DecidableEq

/-- local variables of `read_records`, `/repo/tecs/rinex/v3/o.py:328-329` (`epoch_flag`, `num_of_sat` start as `None`) -/
structure Loc3 where
  ep : Option Epoch3
  special : List Str
  deriving DecidableEq

/-- `Obs3._parse_header`, `/repo/tecs/rinex/v3/o.py:159-169` -/
def parseHeader3 (version : Nat) (header : List Str) (o : Obj3) : Except PyErr Obj3 :=
  match parseHeader version header o.hdr with
  | .error e => .error e
  | .ok h =>
    match assignSysNObs version (header.filter fun l => headerLabel l = lblSysNObs).flatten o.sys with
    | .error e => .error e
    | .ok m => .ok ⟨h, m⟩

/-- `_handle_event`, `/repo/tecs/rinex/v3/o.py:304-314` -/
def handleEvent3 (version : Nat) (flag : Int) (special : List Str) (o : Obj3) : Except PyErr Obj3 :=
  if flag = 4 then parseHeader3 version special o else .ok o

/-- a line after a regular epoch line, `/repo/tecs/rinex/v3/o.py:351-367` -/
def dataLine3 (chunks : List (Nat × Nat)) (line : Str) (ep : Epoch3) (special : List Str) (o : Obj3) :
    Except PyErr (Option Rec3 × Loc3 × Obj3) :=
  if ep.num > 0 then
    match parseObs3 o.sys chunks line with
    | .error e => .error e
    | .ok (sat, d) =>
      match o.sys.get? (sat.take 1) with
      | none => .error .rinex
      | some types =>
        if d.length ≠ types.length then .error .assertion
        else match zipTypes3 types d [] with
          | .error e => .error e
          | .ok dict => .ok (some ⟨ep.epoch, sat, dict⟩, ⟨some { ep with num := ep.num - 1 }, special⟩, o)
  else .ok (none, ⟨some ep, special⟩, o)

/-- a line after an event line, `/repo/tecs/rinex/v3/o.py:337-345` -/
def eventLine3 (version : Nat) (line : Str) (ep : Epoch3) (special : List Str) (o : Obj3) :
    Except PyErr (Option Rec3 × Loc3 × Obj3) :=
  let special := if ep.num > 0 then special ++ [line] else special
  let num := if ep.num > 0 then ep.num - 1 else ep.num
  if num = 0 then
    match handleEvent3 version ep.flag special o with
    | .error e => .error e
    | .ok o => .ok (none, ⟨some { ep with num := num }, special⟩, o)
  else .ok (none, ⟨some { ep with num := num }, special⟩, o)

/-- one turn of the loop of `read_records`, `/repo/tecs/rinex/v3/o.py:331-367`: the yielded record (if any) and the new state -/
def step3 (version : Nat) (chunks : List (Nat × Nat)) (line : Str) (l : Loc3) (o : Obj3) :
    Except PyErr (Option Rec3 × Loc3 × Obj3) :=
  match isEpochLine line with
  | .error e => .error e
  | .ok true =>
    match parseEpoch3 line with
    | .error e => .error e
    | .ok ep => .ok (none, { l with ep := some ep }, o)
  | .ok false =>
    match l.ep with
    | none => .error .type                                  -- None > 1
    | some ep =>
      if ep.flag > 1 then eventLine3 version line ep l.special o
      else dataLine3 chunks line (if ep.flag = 1 then { ep with flag := 0 } else ep) l.special o

/-- a finished run of the generator `read_records` (`/repo/tecs/rinex/v3/o.py:323-367`) -/
structure Run3 where
  yields : List (Rec3 × Obj3)
  stop : Except PyErr Obj3

/-- the loop of `read_records`, `/repo/tecs/rinex/v3/o.py:331-367` -/
def readLoop3 (version : Nat) (chunks : List (Nat × Nat)) : List Str → Loc3 → Obj3 → Run3
  | [], _, o => ⟨[], .ok o⟩
  | line :: ls, l, o =>
    match step3 version chunks line l o with
    | .error e => ⟨[], .error e⟩
    | .ok (y, l, o) =>
      let r := readLoop3 version chunks ls l o
      match y with
      | none => r
      | some rec => ⟨(rec, o) :: r.yields, r.stop⟩

/-- `read_records`, `/repo/tecs/rinex/v3/o.py:323-367` -/
def readRecords3 (version : Nat) (chunks : List (Nat × Nat)) (o : Obj3) (ls : List Str) : Run3 :=
  readLoop3 version chunks ls ⟨none, []⟩ o

/-! ## Interval detection -/

/-- `_next_epoch`, `/repo/tecs/rinex/v3/o.py:138-156`; `cur` is the local variable `epoch` -/
def nextEpoch3 : List Str → Option DateTime → Except PyErr (Option DateTime × List Str)
  | [], cur => .ok (cur, [])
  | line :: ls, cur =>
    match isEpochLine line with
    | .error e => .error e
    | .ok false => nextEpoch3 ls cur
    | .ok true =>
      match parseEpoch3 line with
      | .error e => .error e
      | .ok ep => if ep.flag > 1 then nextEpoch3 ls ep.epoch else .ok (ep.epoch, ls)

/-- the `while` loop of `_det_interval`, `/repo/tecs/rinex/v3/o.py:110-111`; `none` = still running after `fuel` turns -/
def detLoop3 : Nat → Option DateTime → Option DateTime → List Str →
    Option (Except PyErr (Option DateTime × Option DateTime))
  | 0, e0, e1, _ => if e0 = e1 then none else some (.ok (e0, e1))
  | fuel + 1, e0, e1, ls =>
    if e0 = e1 then
      match nextEpoch3 ls none with
      | .error e => some (.error e)
      | .ok (e1, ls) => detLoop3 fuel e0 e1 ls
    else some (.ok (e0, e1))

/-- `_det_interval` up to the value of `dt` (microseconds), `/repo/tecs/rinex/v3/o.py:101-121` -/
def detInterval3 (fuel : Nat) (body : List Str) : Option (Except PyErr Int) :=
  match nextEpoch3 body none with
  | .error e => some (.error e)
  | .ok (e0, ls) =>
    match nextEpoch3 ls none with
    | .error e => some (.error e)
    | .ok (e1, ls) =>
      match detLoop3 fuel e0 e1 ls with
      | none => none
      | some (.error e) => some (.error e)
      | some (.ok (some a, some b)) => if b.sub a ≤ 0 then some (.error .rinex) else some (.ok (b.sub a))
      | some (.ok _) => some (.error .rinex)

/-- header lines before the first END OF HEADER label (`/repo/tecs/rinex/v3/o.py:64-69`, `/repo/tecs/rinex/basic.py:53-59`) and the rest of the file -/
def splitHeader3 : List Str → List Str × List Str
  | [] => ([], [])
  | l :: ls =>
    if headerLabel l = lblEnd then ([], ls)
    else
      let (h, r) := splitHeader3 ls
      (l :: h, r)

/-- an opened RINEX 3 file (`/repo/tecs/rinex/v3/o.py:52-76`) -/
structure Obs3 where
  version : Nat
  obj : Obj3
  chunks : List (Nat × Nat)
  rest : List Str

/-- `Obs3.__init__`, `/repo/tecs/rinex/v3/o.py:52-76`, with the end of `_det_interval`, `/repo/tecs/rinex/v3/o.py:123-136`; `none` = does not return within `fuel` turns of the `while` loop -/
def openObs3 (version : Nat) (fuel : Nat) (file : List Str) : Option (Except PyErr Obs3) :=
  let (header, body) := splitHeader3 file
  match parseHeader3 version header ⟨.empty, []⟩ with
  | .error e => some (.error e)
  | .ok o =>
    match detInterval3 fuel body with
    | none => none
    | some (.error e) => some (.error e)
    | some (.ok dt) =>
      match parseInterval version (padLeft 10 (fmtFixed3 ((dt : Rat) / 1000000))) with
      | .error e => some (.error e)
      | .ok iv =>
        match dataChunks3 o.sys with
        | .error e => some (.error e)
        | .ok chunks =>
          some (.ok ⟨version, { o with hdr := { o.hdr with interval := some iv } }, chunks, afterHeader file⟩)

/-- the records delivered by `read_records()` of a freshly opened file (`/repo/tecs/rinex/v3/o.py:323-367`) -/
def Obs3.records (o : Obs3) : Run3 := readRecords3 o.version o.chunks o.obj o.rest

end Verif.Model
