import Verif.Cim.Reader
import Verif.Xml.Writer
/-
PyCIM/RDFXMLWriter.py: `cimwrite` (lines 34-109).
-/
namespace Verif
namespace Cim
open Py Hp Xml

/-- State of a call: the object heap and the XML writer. -/
structure WState where
  heap : Heap
  w : W

abbrev CPy := Py WState

def onHeap {α : Type} (x : HPy α) : CPy α := fun s =>
  match x s.heap with
  | .ok a h => .ok a { s with heap := h }
  | .err e h => .err e { s with heap := h }

def onWriter {α : Type} (x : WPy α) : CPy α := fun s =>
  match x s.w with
  | .ok a w => .ok a { s with w := w }
  | .err e w => .err e { s with w := w }

/-- Python `==` between an attribute value and a default (line 76): numbers compare across types,
CIM objects and lists equal no literal. `opaque` cannot be decided. -/
def valEq (v : Val) (l : Lit) : Bool :=
  match v, l with
  | .none, .none => true
  | .bool a, .bool b => a == b
  | .bool a, .int i => (if a then 1 else 0) == i
  | .bool a, .flt f => Flt.eqInt f (if a then 1 else 0)
  | .int i, .bool b => i == (if b then 1 else 0)
  | .int i, .int j => i == j
  | .int i, .flt f => Flt.eqInt f i
  | .flt f, .bool b => Flt.eqInt f (if b then 1 else 0)
  | .flt f, .int i => Flt.eqInt f i
  | .flt f, .flt g => Flt.eq f g
  | .str s, .str t => s == t
  | _, _ => false

/-- `str(val)` (lines 78, 88, 99); the text of an object or list (its `repr`, with a memory address)
is not modelled. -/
def pyStr (v : Val) : CPy Str :=
  match v with
  | .none => Py.pure c!"None"
  | .bool true => Py.pure c!"True"
  | .bool false => Py.pure c!"False"
  | .int i => Py.pure (Str.intRepr i)
  | .flt b => Py.pure (Flt.repr b)
  | .str s => Py.pure s
  | _ => throw .unmodelled

/-- Line 57. -/
def nsCIM : Str := nsURI15 ++ c!"#"
def nsRDF : Str := c!"http://www.w3.org/1999/02/22-rdf-syntax-ns#"

/-- `u"%s:%s.%s" % (nsPrefix, klass.__name__, attr)`. -/
def propTag (d : ClassDef) (n : Str) : Str := c!"cim:" ++ d.name ++ c!"." ++ n

/-- Lines 73-78 for one attribute. -/
def writeAttribute (a : Addr) (d : ClassDef) (p : Str × Lit) : CPy Unit := do
  let val ← onHeap (getAttr a p.1)
  if val = .opaque then throw .unmodelled
  else if valEq val p.2 then Py.pure ⟨⟩
  else do
    let t ← pyStr val
    onWriter (element (propTag d p.1) (some t) [] [])

/-- Lines 82-88 for one enumeration. -/
def writeEnum (a : Addr) (d : ClassDef) (p : Str × Lit) : CPy Unit := do
  let val ← onHeap (getAttr a p.1)
  let t ← pyStr val
  onWriter (element (propTag d p.1) none
    [(c!"rdf:resource", nsCIM ++ ((d.enums.lookup p.1).getD []) ++ c!"." ++ t)] [])

/-- Lines 94-99 for one reference. -/
def writeRef (a : Addr) (d : ClassDef) (r : Str) : CPy Unit := do
  let val ← onHeap (getAttr a r)
  if val = .none then Py.pure ⟨⟩
  else do
    let u ← onHeap (getAttrV val c!"UUID")
    let t ← pyStr u
    onWriter (element (propTag d r) none [(c!"rdf:resource", '#' :: t)] [])

/-- `klass._attrs` without / with enumerations (lines 72, 82), `klass._refs` without many references
(line 93). -/
def ClassDef.plainAttrs (d : ClassDef) : List (Str × Lit) :=
  d.attrs.filter fun p => !(d.enums.any fun e => e.1 = p.1)
def ClassDef.enumAttrs (d : ClassDef) : List (Str × Lit) :=
  d.attrs.filter fun p => d.enums.any fun e => e.1 = p.1
def ClassDef.oneRefs (d : ClassDef) : List Str :=
  (d.refs.filter fun r => !r.kind.isMany).map (·.name)

/-- `mro[2:]` of the reversed MRO: without `object` and the class next to it (`Element`). -/
def Cls.written (c : Cls) : List ClassDef := c.reverse.drop 1

/-- Lines 65-101 for one object. `escape_attrib` of a `UUID` that is not a string raises
`AttributeError` after the tag name has been written. -/
def writeObject (a : Addr) : CPy Unit := fun s =>
  match s.heap.cls a with
  | none => .err .unmodelled s
  | some c => (do
    let u ← onHeap (getAttr a c!"UUID")
    match u with
    | .str uuid => do
      let _ ← onWriter (start (c!"cim:" ++ Cls.name c) [(c!"rdf:ID", uuid)] [])
      forEach (fun d => forEach (writeAttribute a d) (ClassDef.plainAttrs d)) (Cls.written c)
      forEach (fun d => forEach (writeEnum a d) (ClassDef.enumAttrs d)) (Cls.written c)
      forEach (fun d => forEach (writeRef a d) (ClassDef.oneRefs d)) (Cls.written c)
      onWriter (endTag none)
    | .opaque => throw .unmodelled
    | _ => do
      onWriter (startTag (c!"cim:" ++ Cls.name c))
      throw .attributeError : CPy Unit) s

/-- `cimwrite(d, source, encoding)` on a new writer (lines 34-109); `w.flush()` of line 107 only
flushes the file (SimpleXMLWriter.py:155-156). -/
def cimwrite (d : Dict) : CPy Unit := do
  onWriter declaration
  let rdf ← onWriter (start c!"rdf:RDF" [(c!"xmlns:rdf", nsRDF), (c!"xmlns:cim", nsCIM)] [])
  forEach (fun p : Str × Addr => writeObject p.2) d
  onWriter (close rdf)

/-- A call with the default encoding: outcome and text written. -/
def cimwriteText (d : Dict) (h : Heap) : Res WState Unit := cimwrite d ⟨h, W.new (py3 c!"utf-8")⟩

end Cim
end Verif
