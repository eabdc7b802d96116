import Verif.Gen.Types
/-
The information model: what the ecore files in /repo/Model say about the classes, independently of the
Python code.  Names are codes of texts (`Verif.Gen.dec`), as in the class tables.
-/
namespace Verif
namespace Spec
open Gen

/-- Type of an attribute: a data type, given by the name of its values' type (`EFloat`,
`java.util.Date`), or an enumeration with its literals. -/
inductive SType where
  | prim (name : Nat)
  | enum (name : Nat) (literals : List Nat)

/-- An association end: the class it leads to, whether it holds many objects
(`upperBound="-1"`), and the name of the opposite end (`eOpposite`), 0 if there is none. -/
structure SRef where
  name : Nat
  target : Nat
  many : Bool
  opp : Nat

/-- A class; `sup` is the path of its super type, 0 if there is none. -/
structure SClass where
  name : Nat
  path : Nat
  sup : Nat
  attrs : List (Nat × SType)
  refs : List SRef

abbrev Schema := List SClass

/-- The class with that path. -/
def Schema.cls (S : Schema) (path : Nat) : Option SClass := S.find? (·.path = path)

/-- Does the association end hold many objects? -/
def Schema.manyAt (S : Schema) (path name : Nat) : Bool :=
  match S.cls path with
  | none => false
  | some e =>
    match e.refs.find? (·.name = name) with
    | none => false
    | some r => r.many

/-- The kind of reference that represents an association end in Python: from the multiplicities of
this end and of the opposite one. -/
def Schema.kind (S : Schema) (r : SRef) : Kind :=
  if r.opp = 0 then (if r.many then .plainMany else .plainOne)
  else
    match r.many, S.manyAt r.target r.opp with
    | false, true => .one2many
    | true, false => .many2one
    | false, false => .one2one
    | true, true => .many2many

/-- The Python type for the values of a data type, by the name of the values' type: `float`, `int` and
`bool` for the numbers and truth values, text for everything else. -/
def primTypes : List (Nat × Nat) := [
  (n!"EFloat", n!"float"), (n!"float", n!"float"),
  (n!"EInt", n!"int"), (n!"EShort", n!"int"), (n!"int", n!"int"), (n!"java.math.BigInteger", n!"int"),
  (n!"EBoolean", n!"bool"),
  (n!"EString", n!"str"), (n!"java.lang.String", n!"str"), (n!"EDate", n!"str"), (n!"java.util.Date", n!"str")]

/-- The Python type of an attribute. -/
def SType.py : SType → Option Nat
  | .prim n => primTypes.lookup n
  | .enum _ _ => some n!"str"

/-- The zero of a Python type. -/
def zeroOf (t : Nat) : RLit :=
  if t = n!"float" then .flt 0
  else if t = n!"int" then .int 0
  else if t = n!"bool" then .bool false
  else .str 0

/-- The value an attribute starts with: the first literal of an enumeration (the empty text if there is
none), otherwise the zero of the type. -/
def SType.initial : SType → Option RLit
  | .prim n => (primTypes.lookup n).map zeroOf
  | .enum _ (l :: _) => some (.str l)
  | .enum _ [] => some (.str 0)

end Spec
end Verif
