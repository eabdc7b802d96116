import Verif.Cim.Obj
/-
Specification side of the association properties: what a user can observe of the references of an
object graph (`view`), which associations the classes declare (`ends`), and what it means for the
two ends of every association to agree (`Consistent`).  Nothing here mentions private fields: all
values are read through the public getter `getAttr`.
-/
namespace Verif
namespace Spec
open Cim

/-- The references of an object graph as a user sees them: `one a r` is the object `a.r` refers to,
`many a r` the members of the collection `a.r` in order. -/
@[ext] structure View where
  one : Addr → Str → Option Addr
  many : Addr → Str → List Addr

namespace View

def setOne (V : View) (a : Addr) (r : Str) (b : Option Addr) : View :=
  { V with one := fun x s => if x = a ∧ s = r then b else V.one x s }

def setMany (V : View) (a : Addr) (r : Str) (bs : List Addr) : View :=
  { V with many := fun x s => if x = a ∧ s = r then bs else V.many x s }

end View

/-- The four bidirectional templates. -/
def regular : Kind → Bool
  | .one2many | .many2one | .one2one | .many2many => true
  | _ => false

/-- Association ends: `ends h a r = some (k, i)` when the class of `a` declares `r` with
multiplicity `k` and opposite end held in the reference `i`. -/
def ends (h : Heap) (a : Addr) (r : Str) : Option (Kind × Str) :=
  match h.cls a with
  | none => none
  | some c =>
    match c.findRef r with
    | some rd => if regular rd.kind then some (rd.kind, rd.far) else none
    | none => none

/-- The object address of a value. -/
def objOf : Val → Option Addr
  | .obj a => some a
  | _ => none

/-- The value of a single reference as a user sees it. -/
def readOne (h : Heap) (a : Addr) (r : Str) : Option Addr :=
  match getAttr a r h with
  | .ok v _ => objOf v
  | .err _ _ => none

/-- The members of a collection as a user sees them. -/
def readMany (h : Heap) (a : Addr) (r : Str) : List Addr :=
  match getAttr a r h with
  | .ok (.list l) h' => ((h'.lst l).getD []).filterMap objOf
  | _ => []

/-- All references of the graph. -/
def view (h : Heap) : View where
  one a r := match ends h a r with
    | some (k, _) => if k.isMany then none else readOne h a r
    | none => none
  many a r := match ends h a r with
    | some (k, _) => if k.isMany then readMany h a r else []
    | none => []

/-- Declared ends of every object. -/
abbrev Ends := Addr → Str → Option (Kind × Str)

/-- Both ends of every association agree: each refers to the other. Collections opposite to a to-one
reference have no object twice; for many-to-many collections see `Distinct`. -/
structure Consistent (E : Ends) (V : View) : Prop where
  one_many : ∀ a r i b, E a r = some (.one2many, i) → V.one a r = some b →
    E b i = some (.many2one, r) ∧ a ∈ V.many b i
  many_one : ∀ b i r a, E b i = some (.many2one, r) → a ∈ V.many b i →
    E a r = some (.one2many, i) ∧ V.one a r = some b
  one_one : ∀ a r i b, E a r = some (.one2one, i) → V.one a r = some b →
    E b i = some (.one2one, r) ∧ V.one b i = some a
  many_many : ∀ a r i b, E a r = some (.many2many, i) → b ∈ V.many a r →
    E b i = some (.many2many, r) ∧ a ∈ V.many b i
  nodup : ∀ a r i, E a r = some (.many2one, i) → (V.many a r).Nodup

/-- No many-to-many collection has an object twice. -/
def Distinct (E : Ends) (V : View) : Prop :=
  ∀ a r i, E a r = some (.many2many, i) → (V.many a r).Nodup

/-- `b` is a legitimate partner of `a` for `a.r`: the class of `b` declares the opposite end. -/
structure Pair (E : Ends) (a : Addr) (r : Str) (k : Kind) (i : Str) (b : Addr) : Prop where
  left : E a r = some (k, i)
  right : E b i = some (k.opp, r)

end Spec
end Verif
