import Verif.Py.Bytes
import Verif.Spec.Program
import Verif.Model.Raw
/-!
# Specification: text files in bytes, and the four forms of an observation file
-/
namespace Verif.Spec
open Verif.Py Verif.Model

/-- line ends: Unix, Windows, old Macintosh -/
inductive Eol where
  | lf | crlf | cr
  deriving DecidableEq

def Eol.bytes : Eol → Bytes
  | .lf => [10]
  | .crlf => [13, 10]
  | .cr => [13]

/-- a line of a text file in bytes: contents without line ends, and its end -/
structure TLine where
  content : Bytes
  eol : Eol

/-- the bytes of a text file: its lines, and an unfinished line at the end (possibly empty) -/
def fileBytes (ls : List TLine) (last : Bytes) : Bytes := (ls.flatMap fun l => l.content ++ l.eol.bytes) ++ last

/-- the characters of the bytes below 128, the others are left out -/
inductive Chars : Bytes → Str → Prop
  | nil : Chars [] []
  | ascii (b : UInt8) (c : Char) (bs : Bytes) (s : Str) : b < 128 → c.toNat = b.toNat → Chars bs s → Chars (b :: bs) (c :: s)
  | other (b : UInt8) (bs : Bytes) (s : Str) : 128 ≤ b → Chars bs s → Chars (b :: bs) s

/-- no line ends inside of lines; a lone `\r` is not followed by an empty line ending with `\n` -/
def LinesOk : List TLine → Bytes → Prop
  | [], last => (10 : UInt8) ∉ last ∧ (13 : UInt8) ∉ last
  | [l], last => (10 : UInt8) ∉ l.content ∧ (13 : UInt8) ∉ l.content ∧ (10 : UInt8) ∉ last ∧ (13 : UInt8) ∉ last
  | l :: m :: ls, last => (10 : UInt8) ∉ l.content ∧ (13 : UInt8) ∉ l.content ∧ (l.eol = .cr → m.eol = .lf → ¬ Chars m.content []) ∧ LinesOk (m :: ls) last

/-- the lines read: the contents, each with a newline character; the unfinished line only if something is in it -/
inductive LinesRead : List TLine → Bytes → List Str → Prop
  | nothing (last : Bytes) : Chars last [] → LinesRead [] last []
  | last (last : Bytes) (s : Str) : Chars last s → s ≠ [] → LinesRead [] last [s]
  | cons (l : TLine) (s : Str) (ls : List TLine) (last : Bytes) (r : List Str) : Chars l.content s → LinesRead ls last r →
      LinesRead (l :: ls) last ((s ++ ['\n']) :: r)

/-- the bytes of the observation file behind the given form: `hat` Hatanaka, `comp` compressed -/
def FormOf (R : RawDisk) (hat comp : Bool) (path : Str) (b : Bytes) : Prop :=
  match hat, comp with
  | false, false => R.bytes path = .ok b
  | false, true => R.gzip path = .ok b
  | true, false => R.crx2rnx path = .ok b
  | true, true => ∃ z, R.gzip path = .ok z ∧ R.crxPipe z = .ok b

/-- the path of an observation file of the given form; the path of the directory does not look like the name of a file -/
def ObsPath (path : Str) (hat comp : Bool) : Prop :=
  '\n' ∉ path ∧ ∃ dir name, (path = name ∨ path = dir ++ '/' :: name ∧ ∀ k, ¬ Marked k dir) ∧ ObsName name hat comp

/-- the encoding of the locale contains ASCII -/
def AsciiLocale (R : RawDisk) : Prop := ∀ b s, (∀ x ∈ b, x < 128) → Chars b s → R.locale b = .ok s

end Verif.Spec
