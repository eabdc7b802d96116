import Verif.Py.Heap
/-
PyCIM/SimpleXMLWriter.py, function by function.

Text written is a list of characters; what a codec turns it into is not modelled. A codec is
represented by the set of characters it can encode: in Python 3 `encode` (lines 95-97) is the
identity, i.e. `can` is always true whatever the encoding is called; in Python 2 (lines 100-101)
`s.encode("us-ascii")` fails on non-ASCII characters.
-/
namespace Verif
namespace Xml
open Py

/-- The `encoding` argument with the characters `encode(s, encoding)` accepts. -/
structure Codec where
  name : Str
  can : Char → Bool

/-- Every string can be encoded: Python 3 with any encoding, Python 2 with "utf-8". -/
def Codec.Total (e : Codec) : Prop := ∀ c, e.can c = true

/-- Python 3 (lines 94-97). -/
def py3 (name : Str) : Codec := ⟨name, fun _ => true⟩
/-- Python 2 with `encoding="us-ascii"` (lines 99-101). -/
def py2ascii : Codec := ⟨c!"us-ascii", fun c => c.toNat < 128⟩

/-- Does the pattern `[&<>"\u0080-\uffff]` match? (line 102; the Python 3 pattern of line 98 is never
used because `encode` does not fail there.) -/
def entityPat (c : Char) : Bool :=
  c = '&' || c = '<' || c = '>' || c = '"' || (0x80 ≤ c.toNat && c.toNat ≤ 0xffff)

/-- `"&#%d;" % ord(char)` (line 109). -/
def numRef (c : Char) : Str := c!"&#" ++ Str.natRepr c.toNat ++ c!";"

/-- `pattern.sub(escape_entities, text)` (lines 104-111): matched characters become references. -/
def subEntities (s : Str) : Str := s.flatMap fun c => if entityPat c then numRef c else [c]

/-- `encode_entity` (lines 104-111); the final `encode(.., "ascii")` fails on characters above U+FFFF. -/
def encodeEntity (s : Str) : Option Str :=
  let t := subEntities s
  if t.all (fun c => c.toNat < 128) then some t else none

/-- Lines 123-128 and 136-141: `encode(s, encoding)` or, on `UnicodeError`, `encode_entity(s)`;
`none` is the `UnicodeError` of the latter. -/
def encodeOr (e : Codec) (s : Str) : Option Str :=
  if s.all e.can then some s else encodeEntity s

/-- Lines 120-122. -/
def escCdata (s : Str) : Str :=
  Str.replace1 '>' c!"&gt;" (Str.replace1 '<' c!"&lt;" (Str.replace1 '&' c!"&amp;" s))

/-- Lines 131-135. -/
def escAttrib (s : Str) : Str :=
  Str.replace1 '>' c!"&gt;" (Str.replace1 '<' c!"&lt;" (Str.replace1 '"' c!"&quot;"
    (Str.replace1 '\'' c!"&apos;" (Str.replace1 '&' c!"&amp;" s))))

/-- Writer object (lines 152-161): text written so far, `__open`, `__tags` (innermost first, the
reverse of the Python list), `__data`, `__encoding`. -/
structure W where
  out : Str
  opn : Bool
  tags : List Str
  data : List Str
  enc : Codec

/-- `XMLWriter(file, encoding)` on an empty file (lines 152-161). -/
def W.new (e : Codec) : W := ⟨[], false, [], [], e⟩

abbrev WPy := Py W

/-- `self.__write(s)`. -/
def write (s : Str) : WPy Unit := Py.modify fun w => { w with out := w.out ++ s }

/-- `escape_cdata(s, self.__encoding)` (lines 119-128). -/
def escapeCdata (s : Str) : WPy Str := fun w =>
  match encodeOr w.enc (escCdata s) with
  | some t => .ok t w
  | none => .err .valueError w

/-- `escape_attrib(s, self.__encoding)` (lines 130-141). -/
def escapeAttrib (s : Str) : WPy Str := fun w =>
  match encodeOr w.enc (escAttrib s) with
  | some t => .ok t w
  | none => .err .valueError w

/-- `__flush` (lines 163-171). -/
def flush : WPy Unit := do
  let w ← Py.get
  if w.opn then
    write c!">"
    Py.modify fun w => { w with opn := false }
  let w ← Py.get
  if w.data ≠ [] then
    let t ← escapeCdata w.data.flatten
    write t
    Py.modify fun w => { w with data := [] }

/-- `declaration` (lines 176-181). -/
def declaration : WPy Unit := do
  let w ← Py.get
  if w.enc.name = c!"us-ascii" ∨ w.enc.name = c!"utf-8" then
    write c!"<?xml version='1.0'?>\n"
  else
    write (c!"<?xml version='1.0' encoding='" ++ w.enc.name ++ c!"'?>\n")

/-- Position of one pair in `sorted(attrib.items())` (line 205; dictionary keys differ). -/
def insertAttr (p : Str × Str) : List (Str × Str) → List (Str × Str)
  | [] => [p]
  | q :: qs => if Str.lt p.1 q.1 then p :: q :: qs else q :: insertAttr p qs

/-- `sorted(attrib.items())`. -/
def sortAttrs : List (Str × Str) → List (Str × Str)
  | [] => []
  | p :: ps => insertAttr p (sortAttrs ps)

/-- Body of the loop of lines 205-208. -/
def writeAttr (p : Str × Str) : WPy Unit := do
  let k ← escapeCdata p.1
  let v ← escapeAttrib p.2
  write (c!" " ++ k ++ c!"=\"" ++ v ++ c!"\"")

/-- Lines 197-201: everything up to the attributes. -/
def startTag (tag : Str) : WPy Unit := do
  flush
  let t ← escapeCdata tag
  Py.modify fun w => { w with data := [], tags := t :: w.tags }
  write (c!"<" ++ t)

/-- `start(tag, attrib, **extra)` (lines 196-210): the loop runs over `attrib`, not over
`combined_attrib`, so `extra` has no effect. -/
def start (tag : Str) (attrib : List (Str × Str)) (_extra : List (Str × Str)) : WPy Nat := do
  startTag tag
  forEach writeAttr (sortAttrs attrib)
  Py.modify fun w => { w with opn := true }
  let w ← Py.get
  Py.pure (w.tags.length - 1)

/-- `comment` (lines 217-219). -/
def comment (c : Str) : WPy Unit := do
  flush
  let t ← escapeCdata c
  write (c!"<!-- " ++ t ++ c!" -->\n")

/-- `data` (lines 226-227). -/
def data (t : Str) : WPy Unit := Py.modify fun w => { w with data := w.data ++ [t] }

/-- Lines 243-250 of `end`. -/
def endTail : WPy Unit := do
  let w ← Py.get
  match w.tags with
  | [] => throw .assertionError
  | t :: ts =>
    Py.modify fun w => { w with tags := ts }
    if w.data ≠ [] then
      flush
      write (c!"</" ++ t ++ c!">")
    else if w.opn then
      Py.modify fun w => { w with opn := false }
      write c!" />"
    else
      write (c!"</" ++ t ++ c!">")

/-- `end(tag)` (lines 236-250); an empty `tag` counts as omitted. -/
def endTag (tag : Option Str) : WPy Unit := do
  match tag with
  | some (c :: cs) =>
    let w ← Py.get
    match w.tags with
    | [] => throw .assertionError
    | t :: _ =>
      let t' ← escapeCdata (c :: cs)
      if t' = t then endTail else throw .assertionError
  | _ => endTail

/-- The loop of `close` (lines 258-260); `n` bounds the number of rounds (one per open tag). -/
def closeLoop (id : Nat) : Nat → WPy Unit
  | 0 => Py.pure ⟨⟩
  | n + 1 => do
    let w ← Py.get
    if w.tags.length > id then
      endTag none
      closeLoop id n
    else Py.pure ⟨⟩

/-- `close(id)`. -/
def close (id : Nat) : WPy Unit := do
  let w ← Py.get
  closeLoop id w.tags.length

/-- `element(tag, text, attrib, **extra)` (lines 267-271). -/
def element (tag : Str) (text : Option Str) (attrib extra : List (Str × Str)) : WPy Unit := do
  let _ ← start tag attrib extra
  match text with
  | some (c :: cs) => data (c :: cs)
  | _ => Py.pure ⟨⟩
  endTag none

/-- One call of the writer API. -/
inductive Call where
  | decl
  | start (tag : Str) (attrib extra : List (Str × Str))
  | data (t : Str)
  | comment (c : Str)
  | fin (tag : Option Str)
  | close (id : Nat)
  | element (tag : Str) (text : Option Str) (attrib extra : List (Str × Str))

def Call.run : Call → WPy Unit
  | .decl => declaration
  | .start t a x => do let _ ← Xml.start t a x
  | .data t => Xml.data t
  | .comment c => Xml.comment c
  | .fin t => endTag t
  | .close i => Xml.close i
  | .element t x a e => Xml.element t x a e

def runCalls (cs : List Call) : WPy Unit := forEach Call.run cs

end Xml
end Verif
