import Verif.Spec.Assoc
/-
User programs: sequences of API calls on the CIM classes, and the histories the association
properties quantify over.
-/
namespace Verif
namespace Spec
open Cim Py Hp

/-- One statement of a user program. -/
inductive Op where
  /-- `klass(k1=v1, …)` -/
  | new (c : Cls) (kw : List (Str × Val))
  /-- `v = [x1, …]`: a list display bound to a variable, to be passed to a constructor -/
  | list (xs : List Addr)
  /-- `a.r = b` or `a.r = None` -/
  | set (a : Addr) (r : Str) (b : Option Addr)
  /-- `a.r = [x1, …]` (a list display, i.e. a new list) -/
  | setList (a : Addr) (r : Str) (xs : List Addr)
  /-- `a.addR(x1, …)` -/
  | add (a : Addr) (r : Str) (xs : List Addr)
  /-- `a.removeR(x1, …)` -/
  | remove (a : Addr) (r : Str) (xs : List Addr)
  /-- `a.n = literal` on a plain attribute -/
  | put (a : Addr) (n : Str) (v : Lit)

def optVal : Option Addr → Val
  | some b => .obj b
  | none => .none

/-- The objects in the list `l`. -/
def members (h : Heap) (l : Addr) : List Addr :=
  ((h.lst l).getD []).filterMap fun v => match v with | .obj b => some b | _ => none

/-- Runs one statement under the recursion limit `fuel`. -/
def Op.run (fuel : Nat) : Op → HPy Unit
  | .new c kw => do let _ ← construct fuel c kw
  | .list xs => do let _ ← newList (xs.map Val.obj)
  | .set a r b => setAttr fuel a r (optVal b)
  | .setList a r xs => do
    let l ← newList (xs.map Val.obj)
    setAttr fuel a r l
  | .add a r xs => callAdd fuel a r (xs.map Val.obj)
  | .remove a r xs => callRemove fuel a r (xs.map Val.obj)
  | .put a n v => setAttr fuel a n v.toVal

end Spec
end Verif
