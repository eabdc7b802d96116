import Verif.Spec.Read
/-
C83: what a document says to the reader, as a function of its element tree.
-/
namespace Verif
namespace Spec
open Xml Cim

/-- An element of the CIM namespace as far as it has a meaning: its name, the identifier it carries,
else the resource it refers to, else its text, and the elements inside it. -/
inductive Sk where
  | mk (tag : Str) (id res text : Option Str) (kids : List Sk)

namespace Voc
variable (v : Voc)

/-- Is this the name of an element of the CIM namespace? -/
def isCim (g : Str) : Bool := (v.tagOf []).isPrefixOf g

/-- `rdf:ID`, or else `rdf:about` without its first character. -/
def ident (a : List (Str × Str)) : Option Str :=
  match a.lookup (v.rdfAttr c!"ID") with
  | some u => some u
  | none => (a.lookup (v.rdfAttr c!"about")).map (·.drop 1)

/-- `rdf:resource`, where it matters. -/
def resource (a : List (Str × Str)) : Option Str :=
  if (v.ident a).isSome then none else a.lookup (v.rdfAttr c!"resource")

/-- Text that matters. -/
def words (a : List (Str × Str)) (x : Option Str) : Option Str :=
  if (v.ident a).isSome ∨ (v.resource a).isSome then none else x

mutual
/-- The elements of the CIM namespace, nested as they are in the document; other elements are
transparent. -/
def content : Elem → List Sk
  | .mk _ g a x ks => if v.isCim g then [.mk g (v.ident a) (v.resource a) (v.words a x) (contentAll ks)] else contentAll ks
def contentAll : List Elem → List Sk
  | [] => []
  | k :: ks => content k ++ contentAll ks
end

/-- The document elements play the same part: an element of the CIM namespace is special there (the
reader forgets its attributes once it has met another element). -/
def SameRoot (t t' : Elem) : Prop :=
  v.isCim t.tag = v.isCim t'.tag ∧ (v.isCim t.tag = true → (t.kids = [] ↔ t'.kids = []))

end Voc
end Spec
end Verif
