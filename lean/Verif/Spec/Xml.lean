import Verif.Xml.Writer
import Verif.Xml.Lex
/-
Specification of the XML writer: the document a sequence of calls describes, as tokens of the XML
parser specification.
-/
namespace Verif
namespace Spec
open Xml

/-- Legal text: XML characters; a carriage return would be changed by line-end normalisation. -/
def TextOk (s : Str) : Prop := ∀ c ∈ s, isChar c = true ∧ c ≠ '\r'

/-- Legal attribute value: besides, TAB and LF would be changed by attribute-value normalisation. -/
def AttrOk (s : Str) : Prop := ∀ c ∈ s, isChar c = true ∧ c ≠ '\r' ∧ c ≠ '\t' ∧ c ≠ '\n'

instance (s : Str) : Decidable (TextOk s) := inferInstanceAs (Decidable (∀ c ∈ s, _))
instance (s : Str) : Decidable (AttrOk s) := inferInstanceAs (Decidable (∀ c ∈ s, _))

/-- Legal attribute dictionary. -/
structure AttrsOk (as : List (Str × Str)) : Prop where
  names : ∀ p ∈ as, isName p.1 = true
  values : ∀ p ∈ as, AttrOk p.2
  keys : (as.map Prod.fst).Nodup

/-- Legal comment: no "--" inside (XML 1.0 §2.5), and none of the characters the writer escapes,
since a parser does not undo escapes in comments. -/
structure CommentOk (s : Str) : Prop where
  text : TextOk s
  plain : ∀ c ∈ s, c ≠ '&' ∧ c ≠ '<' ∧ c ≠ '>'
  dashes : ¬ c!"--" <:+: s

/-- Calls whose arguments can appear in an XML document at all. `declaration` is only meaningful as
the first call and is treated separately; keyword attributes are excluded (they are not written,
`Props.C28_fails`). -/
def CallOk : Call → Prop
  | .decl => False
  | .start t as extra => isName t = true ∧ AttrsOk as ∧ extra = []
  | .data s => TextOk s
  | .comment s => CommentOk s
  | .fin _ => True
  | .close _ => True
  | .element t x as extra => isName t = true ∧ AttrsOk as ∧ TextOk (x.getD []) ∧ extra = []

/-- A document being written: open elements (innermost first), the tokens so far, and character
data still waiting for the next tag or comment. -/
@[ext] structure Doc where
  stk : List Str
  toks : List Tok
  wait : Str

namespace Doc

def empty : Doc := ⟨[], [], []⟩

/-- Character data comes before whatever follows. -/
def put (d : Doc) (ts : List Tok) : Doc := ⟨d.stk, d.toks ++ d.wait.map Tok.char ++ ts, []⟩

/-- Closes the innermost element. -/
def pop (d : Doc) : Option Doc :=
  match d.stk with
  | [] => none
  | t :: ts => some { d.put [.fin t] with stk := ts }

/-- Opens an element. -/
def push (d : Doc) (t : Str) (as : List (Str × Str)) : Doc :=
  { d.put [.start t as] with stk := t :: d.stk }

/-- Closes elements until at most `id` are open. -/
def popTo (d : Doc) (id : Nat) : Doc :=
  match d.stk.take (d.stk.length - id) with
  | [] => d
  | ts => { d.put (ts.map Tok.fin) with stk := d.stk.drop (d.stk.length - id) }

/-- The document after one call; `none` when the call must be rejected. `f` is the order in which
attributes are written, which has no meaning in XML. -/
def call (f : List (Str × Str) → List (Str × Str)) (d : Doc) : Call → Option Doc
  | .decl => none
  | .start t as _ => some (d.push t (f as))
  | .data s => some { d with wait := d.wait ++ s }
  | .comment s => some (d.put [.comment (c!" " ++ s ++ c!" "), .char '\n'])
  | .fin none => d.pop
  | .fin (some t) => if t = [] ∨ d.stk.head? = some t then d.pop else none
  | .close id => some (d.popTo id)
  | .element t x as _ => some (d.put (.start t (f as) :: (x.getD []).map Tok.char ++ [.fin t]))

def calls (f : List (Str × Str) → List (Str × Str)) : Doc → List Call → Option Doc
  | d, [] => some d
  | d, c :: cs => (d.call f c).bind fun d' => calls f d' cs

end Doc

/-- Start and end tags match; the result is the list of elements left open. -/
def nest : List Str → List Tok → Option (List Str)
  | stk, [] => some stk
  | stk, .start t _ :: ts => nest (t :: stk) ts
  | [], .fin _ :: _ => none
  | u :: stk, .fin t :: ts => if t = u then nest stk ts else none
  | stk, _ :: ts => nest stk ts

end Spec
end Verif
