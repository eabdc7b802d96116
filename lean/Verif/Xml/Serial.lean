import Verif.Xml.Tree
import Verif.Xml.Pretty
import Verif.Xml.Writer
/-
PyCIM/PrettyPrintXML.py:23-26 (`xmlpp`): `parse`, `indent`, `tostring`.

`parse` and `tostring` are `xml.etree.ElementTree`'s (line 21) and not part of the repository; the
definitions say what they do: `parse` is the event parser of `Xml.Tree` feeding `TreeBuilder`,
`tostring` is `ElementTree.write` with its defaults (encoding us-ascii, no declaration, short empty
elements). What differs between versions of Python, the order in which attributes are written and the
treatment of white space in their values, is a parameter (`Ver`).
-/
namespace Verif
namespace Xml

/-! ### `parse(source).getroot()` -/

/-- An element `TreeBuilder` has not closed yet. -/
structure Opn where
  tag : Str
  attrs : List (Str × Str)
  text : Str
  kids : List Node

/-- Appends to the tail of the last node. -/
def addTail (s : Str) : List Node → List Node
  | [] => []
  | [n] => [n.setTail (n.tail ++ s)]
  | n :: m :: ns => n :: addTail s (m :: ns)

/-- Character data: the text of the open element, or the tail of its last child. -/
def Opn.data (s : Str) (o : Opn) : Opn :=
  if o.kids.isEmpty then { o with text := o.text ++ s } else { o with kids := addTail s o.kids }

/-- `TreeBuilder`: open elements, innermost first, and the finished document element. -/
structure Builder where
  stack : List Opn
  root : Option Node

/-- `TreeBuilder.data`; white space around the document element is not delivered. -/
def Builder.data (s : Str) (b : Builder) : Builder :=
  match b.stack with
  | [] => b
  | o :: os => ⟨o.data s :: os, b.root⟩

/-- `TreeBuilder.start`, `TreeBuilder.end`. -/
def Builder.feed (b : Builder) : Ev → Builder
  | .ns _ _ => b
  | .start t as => ⟨⟨t, as, [], []⟩ :: b.stack, b.root⟩
  | .fin _ _ _ _ =>
    match b.stack with
    | [] => b
    | [o] => ⟨[], some (.mk o.tag o.attrs o.text o.kids [])⟩
    | o :: p :: os =>
      ⟨{ p with kids := p.kids ++ [.mk o.tag o.attrs o.text o.kids []] } :: os, b.root⟩

/-- One token through parser and builder. -/
def bstep (s : TS) (b : Builder) (t : Tok) : Option (TS × Builder) :=
  match tstep s t with
  | none => none
  | some (s', es) =>
    some (s', es.foldl Builder.feed (match t with | .char c => b.data [c] | _ => b))

def brun (s : TS) (b : Builder) : List Tok → Option (TS × Builder)
  | [] => some (s, b)
  | t :: ts => match bstep s b t with
    | none => none
    | some (s', b') => brun s' b' ts

/-- `parse(source).getroot()` (line 24); `none` is `ParseError`. -/
def parseTree (s : Str) : Option Node :=
  if (lex s).2 then
    match brun (.pre true) ⟨[], none⟩ (lex s).1 with
    | some (.post, b) => b.root
    | _ => none
  else none

/-! ### `tostring(root)` -/

/-- `qname[1:].rsplit("}", 1)` for a name that starts with a brace. (Without a closing brace Python
raises `ValueError`; `parse` does not produce such names.) -/
def splitClark : Str → Option (Str × Str)
  | '{' :: s => some ((s.take (s.length - (Str.afterLast '}' s).length - 1)), Str.afterLast '}' s)
  | _ => none

/-- `ElementTree._namespace_map`. -/
def wellKnown : List (Str × Str) := [
  (c!"http://www.w3.org/XML/1998/namespace", c!"xml"),
  (c!"http://www.w3.org/1999/xhtml", c!"html"),
  (c!"http://www.w3.org/1999/02/22-rdf-syntax-ns#", c!"rdf"),
  (c!"http://schemas.xmlsoap.org/wsdl/", c!"wsdl"),
  (c!"http://www.w3.org/2001/XMLSchema", c!"xs"),
  (c!"http://www.w3.org/2001/XMLSchema-instance", c!"xsi"),
  (c!"http://purl.org/dc/elements/1.1/", c!"dc")]

/-- `add_qname` of `_namespaces`: the table from namespaces to prefixes. -/
def addNs (T : List (Str × Str)) (q : Str) : List (Str × Str) :=
  match splitClark q with
  | none => T
  | some (u, _) =>
    match T.lookup u with
    | some _ => T
    | none =>
      match wellKnown.lookup u with
      | some p => if p = c!"xml" then T else T ++ [(u, p)]
      | none => T ++ [(u, c!"ns" ++ Str.natRepr T.length)]

mutual
/-- Tags and attribute names in the order of `elem.iter()`. -/
def Node.names : Node → List Str
  | .mk g a _ k _ => g :: (a.map Prod.fst ++ namesAll k)
def namesAll : List Node → List Str
  | [] => []
  | n :: ns => n.names ++ namesAll ns
end

/-- `_namespaces(root)`. -/
def nsTable (n : Node) : List (Str × Str) := n.names.foldl addNs []

/-- `qnames[q]`. An entry is computed when the name is first met; the table of namespaces only grows,
so the final one gives the same prefix. -/
def qn (T : List (Str × Str)) (q : Str) : Str :=
  match splitClark q with
  | none => q
  | some (u, l) => ((T.lookup u).getD ((wellKnown.lookup u).getD [])) ++ ':' :: l

/-- Carriage returns in attribute values: written as they are (Python up to 3.6), turned into line
feeds together with a line feed that follows (3.7, 3.8), written as references (since 3.9). -/
inductive Cr where
  | keep
  | lf
  | ref
deriving DecidableEq

/-- How a version of Python writes attributes: their order (sorted before 3.8, as in the document
since), whether TAB is written as a reference (since 3.7), and the treatment of carriage returns. -/
structure Ver where
  order : List (Str × Str) → List (Str × Str)
  tab : Bool
  cr : Cr

instance : CoeFun Ver (fun _ => List (Str × Str) → List (Str × Str)) := ⟨Ver.order⟩

/-- `_escape_attrib`, character by character. -/
def escB (f : Ver) (c : Char) : Str :=
  if c = '&' then c!"&amp;" else if c = '<' then c!"&lt;" else if c = '>' then c!"&gt;"
  else if c = '"' then c!"&quot;"
  else if c = '\r' ∧ f.cr = .ref then c!"&#13;"
  else if c = '\n' then c!"&#10;"
  else if c = '\t' ∧ f.tab = true then c!"&#09;"
  else [c]

/-- `_escape_attrib`. -/
def escValue (f : Ver) (s : Str) : Str := (if f.cr = .lf then normNL s else s).flatMap (escB f)

/-- `" %s=\"%s\"" % (k, _escape_attrib(v))`. -/
def attrB (f : Ver) (p : Str × Str) : Str := c!" " ++ p.1 ++ c!"=\"" ++ escValue f p.2 ++ c!"\""

/-- The namespace declarations, sorted on the prefix. -/
def nsDecls (T : List (Str × Str)) : List (Str × Str) :=
  (sortAttrs (T.map fun p => (p.2, p.1))).map fun p => (c!"xmlns:" ++ p.1, p.2)

mutual
/-- `_serialize_xml`; `ds` are the namespace declarations (document element only). -/
def ser (f : Ver) (T ds : List (Str × Str)) : Node → Str
  | .mk g a x k t =>
    c!"<" ++ qn T g ++ ds.flatMap (attrB f) ++ ((f a).map fun p => (qn T p.1, p.2)).flatMap (attrB f) ++
    (if x.isEmpty && k.isEmpty then c!" />"
     else c!">" ++ escCdata x ++ serAll f T k ++ c!"</" ++ qn T g ++ c!">") ++ escCdata t
def serAll (f : Ver) (T : List (Str × Str)) : List Node → Str
  | [] => []
  | n :: ns => ser f T [] n ++ serAll f T ns
end

/-- `s.encode("us-ascii", "xmlcharrefreplace")`. -/
def ascC (c : Char) : Str := if c.toNat < 128 then [c] else numRef c

/-- `tostring(root)`. -/
def tostring (f : Ver) (n : Node) : Str :=
  (ser f (nsTable n) (nsDecls (nsTable n)) n).flatMap ascC

/-- `xmlpp(source)` (lines 23-26); `none` is `ParseError`. -/
def xmlpp (f : Ver) (source : Str) : Option Str :=
  (parseTree source).map fun root => tostring f (indent 0 root)

end Xml
end Verif
