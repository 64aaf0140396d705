import Verif.Model.FUtils
import Verif.Py.Format
import Verif.Model.NmUtils
import Verif.Model.Config
import Verif.Py.Double
import Verif.Py.Bytes
import Verif.Py.Date
open Verif.Py Verif.Model
def dec (s : String) : Str := ((s.splitOn " ").filter (· ≠ "")).map fun n => Char.ofNat n.toNat!
def enc (s : Str) : String := " ".intercalate (s.map fun c => toString c.toNat)
def encl (l : List Str) : String := "|".intercalate (l.map enc)
def S (s : Str) : String := String.ofList s
def q (a b : Str) : Rat := (((S a).toInt! : Int) : Rat) / (((S b).toInt! : Int) : Rat)
def ints (s : Str) : List Int := (((S s).splitOn " ").filter (· ≠ "")).map String.toInt!
def dts (t : DateTime) : String := s!"{t.year} {t.month} {t.day} {t.hour} {t.minute} {t.second} {t.micro}"
def er : PyErr → String | .value => "value" | .overflow => "overflow" | .type => "type" | _ => "other"
def hitStr (h : Option Hit) (s : Str) (n : Nat) : String :=
  match h with
  | none => "none"
  | some h => encl ((s.take (s.length - h.rest.length)) :: (List.range n).map fun i => h.group (i+1))
def dt7 (l : List Int) : DateTime := match l.map Int.toNat with | [a,b,c,d,e,f,g] => ⟨a,b,c,d,e,f,g⟩ | _ => ⟨1,1,1,0,0,0,0⟩
def run1 (op : String) (a : List Str) : String :=
  match op, a with
  | "int", [s] => match parseInt s with | some i => s!"ok {i}" | none => "err"
  | "float", [s] => match parseFloat s with | none => "err" | some .nan => "nan" | some (.inf n) => if n then "-inf" else "inf" | some (.fin x) => let d := double x; s!"{d.num}/{d.den}"
  | "strip", [s] => enc (strip s)
  | "rstrip", [s] => enc (rstrip s)
  | "isspace", [s] => if isSpaceStr s then "True" else "False"
  | "split", [s] => encl (splitWs s)
  | "splitc", [s] => encl (splitOn ',' s)
  | "upper", [s] => enc (upper s)
  | "lower", [s] => enc (lower s)
  | "in", [n, t] => if contains n t then "True" else "False"
  | "ascii", [s] => enc (decodeAscii (s.map fun c => UInt8.ofNat c.toNat))
  | "lines", [s] => encl (textLines s)
  | "zfill", [s, w] => enc (zfill (S w).toNat! s)
  | "fmtf", [sp, n, d] => match formatVal sp (.flt (.fin (q n d))) with | .ok s => enc s | .error _ => "err"
  | "fmtd", [sp, n] => match formatVal sp (.int (S n).toInt!) with | .ok s => enc s | .error _ => "err"
  | "fmtfi", [sp, n] => match formatVal sp (.int (S n).toInt!) with | .ok s => enc s | .error _ => "err"
  | "round", [n, d] => toString (roundHalfEven (q n d))
  | "roundq", [n, d] => toString (roundHalfEven (q n d))
  | "trunc", [n, d] => toString (truncRat (q n d))
  | "double", [n, d] => let x := double (q n d); s!"{x.num}/{x.den}"
  | "dt", [s] => match mkDateTime (ints s) with | .ok t => "ok " ++ dts t | .error e => er e
  | "add", [t, d] => match (dt7 (ints t)).add (S d).toInt! with | .ok t => "ok " ++ dts t | .error e => er e
  | "sub", [t, u] => toString ((dt7 (ints t)).sub (dt7 (ints u)))
  | "ord", [s] => match (ints s).map Int.toNat with | [a,b,c] => toString (ymd2ord a b c) | _ => "?"
  | "ofo", [s] => let x := ord2ymd (S s).toNat!; s!"{x.1} {x.2.1} {x.2.2}"
  | "ver", [s] => hitStr (reVer.match1 s) s 1
  | "modern", [s] => hitStr (reModern.match1 s) s 3
  | "classic", [s] => hitStr (reClassic.match1 s) s 4
  | "rez", [s] => hitStr (reZ.match1 s) s 2
  | "recrx", [s] => hitStr (reCrx.match1 s) s 2
  | "rernx", [s] => hitStr (reRnx.match1 s) s 2
  | "obs", [s] => if reObs.accepts s then "True" else "False"
  | "xyz", [s] => if reXyz.accepts s then "True" else "False"
  | "woext", [s] => match reObsWoExt.match1 s with | none => "none" | some h => enc (h.group 1)
  | "nav", [n, t, c] => if (composeNavRe (c.headD 'G') (dt7 (ints t))).accepts n then "True" else "False"
  | "strptime", [s] => match strptimeXyz s with | .ok t => "ok " ++ dts t | .error e => er e
  | "respl", [s] => encl (splitSpaces s)
  | "comment", [s] => if reComment.accepts s then "True" else "False"
  | "dirlist", [s] => encl (getDirList s)
  | "quoted", [s] => if isQuoted s then "True" else "False"
  | "dropc", [s] => enc (dropComment s)
  | "rmsp", [s] => enc (removeSpaces s)
  | _, _ => "?"
def main : IO Unit := do
  let ls ← IO.FS.lines "/tmp/diff/cases.txt"
  let es ← IO.FS.lines "/tmp/diff/exp.txt"
  let mut bad := 0
  for (l, e) in ls.zip es do
    match l.splitOn "\t" with
    | op :: as =>
      let r := run1 op (as.map dec)
      if r ≠ e then
        bad := bad + 1
        if true then IO.println s!"{op} {as.map fun a => S (dec a) |>.quote} got {r} expected {e}"
    | _ => pure ()
  IO.println s!"bad {bad} of {ls.size}"
