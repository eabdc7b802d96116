import Verif.Cim.Reader
import Verif.Xml.File
/-
PyCIM/RDFXMLReader.py: the sources of `cimread`.  A path is opened anew by each of the three calls of `iterparse`
(lines 74, 112, 237): `Cim.read` on the text of the file.  A file object is read from where it stands; it is set back
to its beginning after the first (lines 245-246) and the second (lines 108-109) of the three, if it has `seek`.
-/
namespace Verif
namespace Cim
open Py Hp Xml

/-- `hasattr(source, "seek")`, and whether `source.seek(0)` succeeds (a pipe or socket raises `OSError`). -/
inductive Seek where
  | absent
  | fails
  | works
  deriving DecidableEq

/-- A file object: its content (characters or bytes), how the parser takes a part of it as text, the position. -/
structure Src (α : Type) where
  data : List α
  text : List α → Str
  pos : Nat
  seek : Seek

/-- The text the parser gets from position `p` on; every parser starts afresh. -/
def Src.from {α : Type} (f : Src α) (p : Nat) : Stream := parse (f.text (f.data.drop p))

/-- A file opened in text mode, or a StringIO: expat takes the characters as they are. -/
def Src.chars (t : Str) (pos : Nat) (seek : Seek) : Src Char := ⟨t, id, pos, seek⟩

/-- A file opened in binary mode, or a BytesIO. -/
def Src.bytes (codecs : Str → Option (Nat → Option Char)) (b : List Nat) (pos : Nat) (seek : Seek) : Src Nat :=
  ⟨b, fileText codecs, pos, seek⟩

/-- `cimread(source, …)` of a file object (lines 31-227).  `cut` is how much `xmlns` takes from the file, which depends
on the size of the blocks; then the position is not used unless the file cannot be set back. The result is the position
afterwards. A failing `seek` raises `OSError`, here `valueError` (`io.UnsupportedOperation` is both). -/
def cimreadFrom {α : Type} (env : Env) (f : Src α) (cut : Nat) (packageMap : Option PkgMap) (nsURI : Option Str) :
    RPy Nat :=
  match f.seek with
  | .fails => do
    let _ ← xmlns (f.from f.pos)
    throw .valueError
  | .absent => do
    let g ← configure env (f.from f.pos) packageMap nsURI
    overEvents (f.from (f.pos + cut)) (loop1 g false)
    overEvents (f.from f.data.length) (loop2 g none)
    flushLog
    Py.pure f.data.length
  | .works => do
    let g ← configure env (f.from f.pos) packageMap nsURI
    overEvents (f.from 0) (loop1 g false)
    overEvents (f.from 0) (loop2 g none)
    flushLog
    Py.pure f.data.length

end Cim
end Verif
