import Verif.Model.Program
import Verif.Py.Bytes
/-!
# From bytes to lines: `/repo/tecs/rinex/futils.py:110-250`

`gzip` and `crx2rnx` are programs from outside; the model knows what they write to their output, or that they cannot be started.  A file opened with the encoding
of the locale is decoded as a whole (in the program: piece by piece while it is read).
-/
namespace Verif.Model
open Verif.Py

/-- the disk in bytes, the programs, and the encoding of the locale (`/repo/tecs/rinex/futils.py:137-250`, `314`, `369`, `397`) -/
structure RawDisk where
  listing : Str → Except PyErr (List Str)
  present : Str → Bool
  /-- the bytes of a file -/
  bytes : Str → Except PyErr Bytes
  /-- the output of `gzip -cd filename`; an error: the program cannot be started -/
  gzip : Str → Except PyErr Bytes
  /-- the output of `crx2rnx - filename` -/
  crx2rnx : Str → Except PyErr Bytes
  /-- the output of `crx2rnx` with the given input -/
  crxPipe : Bytes → Except PyErr Bytes
  /-- decoding with the encoding of the locale -/
  locale : Bytes → Except PyErr Str

/-- `write_ascii_lines`, `/repo/tecs/rinex/futils.py:110-116`: what is in the temporary file -/
def writeAsciiLines : List Bytes → Str → Str
  | [], dst => dst
  | l :: ls, dst => writeAsciiLines ls (dst ++ decodeAscii l)

/-- the lines read from the temporary file after `seek(0)`, `/repo/tecs/rinex/futils.py:145-151`, `203`, `223-229`, `244-249` -/
def tmpLines (b : Bytes) : List Str := textLines (writeAsciiLines (linesOfSeq 10 b) [])

/-- a program that cannot be started is an UncompressError, `/repo/tecs/rinex/futils.py:152-154`, `191-198`, `212-220`, `233-241` -/
def started (b : Except PyErr Bytes) : Except PyErr Bytes :=
  match b with
  | .error _ => .error .uncompress
  | .ok b => .ok b

/-- the files as the program reads them, `/repo/tecs/rinex/futils.py:119-250`, `397` -/
def diskOf (R : RawDisk) : Disk where
  listing := R.listing
  present := R.present
  lines f p :=
    match f with
    | .plain => (R.bytes p).map fun b => textLines (decodeAscii b)
    | .gunzip => (started (R.gzip p)).map tmpLines
    | .gunzipCrx =>
      match started (R.gzip p) with
      | .error e => .error e
      | .ok b => (started (R.crxPipe b)).map tmpLines
    | .crx => (started (R.crx2rnx p)).map tmpLines
    | .empty => .ok []
    | .text =>
      match R.bytes p with
      | .error e => .error e
      | .ok b => (R.locale b).map textLines

end Verif.Model
