import Verif.Py.Str
/-
PyCIM/PrettyPrintXML.py:28-41 (`indent`) on element trees.

`xmlpp` (lines 23-26) is `parse`, `indent`, `tostring`; the first and last are the standard library's.
Python's `None` and `""` for a missing text or tail are both falsy and serialised alike; both are `[]`.
-/
namespace Verif
namespace Xml

/-- An `xml.etree` element: `tail` is the text between its end tag and the next tag. -/
inductive Node where
  | mk (tag : Str) (attrs : List (Str × Str)) (text : Str) (kids : List Node) (tail : Str)

namespace Node

def tag : Node → Str | mk t _ _ _ _ => t
def attrs : Node → List (Str × Str) | mk _ a _ _ _ => a
def text : Node → Str | mk _ _ x _ _ => x
def kids : Node → List Node | mk _ _ _ k _ => k
def tail : Node → Str | mk _ _ _ _ t => t
/-- `elem.tail = t`. -/
def setTail (t : Str) : Node → Node | mk g a x k _ => mk g a x k t

end Node

/-- `"\n" + level*"  "` (line 29). -/
def nl (level : Nat) : Str := '\n' :: (List.replicate level c!"  ").flatten

/-- `not s or not s.strip()` (lines 31, 33, 37, 40). -/
def blank (s : Str) : Bool := s.isEmpty || (Str.strip s).isEmpty

/-- Lines 37-38, on the last element visited by the loop. -/
def fixLast (i : Str) : List Node → List Node
  | [] => []
  | [n] => [if blank n.tail then n.setTail i else n]
  | n :: m :: ns => n :: fixLast i (m :: ns)

mutual
/-- `indent(elem, level)` (lines 28-41). -/
def indent (level : Nat) : Node → Node
  | .mk g a x [] t => .mk g a x [] (if level ≠ 0 ∧ blank t then nl level else t)
  | .mk g a x (k :: ks) t =>
    .mk g a (if blank x then nl level ++ c!"  " else x)
      (fixLast (nl level) (indentKids (level + 1) (k :: ks)))
      (if blank t then nl level else t)
/-- The loop of lines 35-36. -/
def indentKids (level : Nat) : List Node → List Node
  | [] => []
  | k :: ks => indent level k :: indentKids level ks
end

end Xml
end Verif
