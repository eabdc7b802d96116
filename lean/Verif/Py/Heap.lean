import Verif.Py.Str
/-
A model of the part of the Python object heap PyCIM uses: objects with a class and an instance
`__dict__`, and mutable lists with identity.  Exceptions are values; the heap reached when an
exception is raised is kept (Python does not roll back).
-/
namespace Verif

/-- Addresses of objects and lists (`id(x)`). -/
notation "Addr" => Nat

/-- Python values stored in attributes. Floats are IEEE-754 bit patterns. `opaque` stands for
values the model does not look into (bound methods, class metadata). -/
inductive Val where
  | none
  | bool (b : Bool)
  | int (i : Int)
  | flt (bits : UInt64)
  | str (s : Str)
  | obj (a : Addr)
  | list (l : Addr)
  | opaque
  deriving DecidableEq, Repr

/-- Exceptions. `unmodelled` marks behaviour outside the model (never raised by Python itself);
theorems about successful runs therefore also exclude it. -/
inductive Err where
  | attributeError
  | typeError
  | valueError
  | indexError
  | recursionError
  | assertionError
  | parseError
  | unmodelled
  deriving DecidableEq, Repr

/-- Outcome of a Python computation: a value or an exception, and the state reached. -/
inductive Res (σ : Type u) (α : Type v) where
  | ok (a : α) (s : σ)
  | err (e : Err) (s : σ)

/-- The state reached, whether or not an exception was raised. -/
def Res.state {σ : Type u} {α : Type v} : Res σ α → σ
  | .ok _ s => s
  | .err _ s => s

/-- The exception raised, if any. -/
def Res.error? {σ : Type u} {α : Type v} : Res σ α → Option Err
  | .ok _ _ => .none
  | .err e _ => some e

/-- Python code: state transformer with exceptions. -/
def Py (σ : Type u) (α : Type v) := σ → Res σ α

namespace Py
variable {σ : Type u} {α β : Type v}

def pure (a : α) : Py σ α := fun s => .ok a s
def bind (x : Py σ α) (f : α → Py σ β) : Py σ β := fun s =>
  match x s with
  | .ok a s' => f a s'
  | .err e s' => .err e s'
def throw (e : Err) : Py σ α := fun s => .err e s
def get : Py σ σ := fun s => .ok s s
def modify (f : σ → σ) : Py σ Unit := fun s => .ok ⟨⟩ (f s)

instance : Monad (Py σ) where
  pure := Py.pure
  bind := Py.bind

/-- `for x in xs: f x`. -/
def forEach {ι : Type w} (f : ι → Py σ Unit) : List ι → Py σ Unit
  | [] => Py.pure ⟨⟩
  | x :: xs => Py.bind (f x) fun _ => forEach f xs

end Py

/-! ### Classes -/

/-- Shapes of reference declarations in the generated classes.
`one2many … many2many` are the four bidirectional property templates; the others are the
declarations that deviate from them (see `Verif/Cim/Obj.lean`). -/
inductive Kind where
  | one2many   -- to-one, opposite end is a collection
  | many2one   -- collection, opposite end is to-one
  | one2one
  | many2many
  | plainOne   -- plain attribute, class attribute `R = None`, no opposite end
  | oneNoInv   -- property without opposite end (CheckPoint, VoltageCheckPoint)
  | alias      -- ACLineSegment.SequenceImpedance / PhaseImpedance
  | plainMany  -- plain list attribute, methods called `add_R`
  | absent     -- listed in `_refs` but nowhere defined
  deriving DecidableEq, Repr

/-- Opposite multiplicity. -/
def Kind.opp : Kind → Kind
  | .one2many => .many2one
  | .many2one => .one2many
  | k => k

/-- Is the reference listed in `_many_refs`? -/
def Kind.isMany : Kind → Bool
  | .many2one | .many2many | .plainMany | .absent => true
  | _ => false

/-- One entry of `_refs` together with the shape of its accessor methods.
`inv` is the attribute name the methods use for the opposite end (for `alias`: the property it
forwards to); `aliasCls` is the class an `alias` getter tests for; `via` is the reference behind `inv` if
that is an `alias` of the opposite class (CIM15/IEC61970/Wires/PerLengthSequenceImpedance.py:73-96 and
PerLengthPhaseImpedance.py), else empty; `addDup` marks
`CIM15.IEC61970.Core.Equipment.addOperationalLimitSet/removeOperationalLimitSet`. -/
structure RefDef where
  name : Str
  kind : Kind
  inv : Str := []
  aliasCls : Str := []
  addDup : Bool := false
  via : Str := []
  deriving DecidableEq, Repr

/-- The reference that holds the opposite end. -/
def RefDef.far (rd : RefDef) : Str := if rd.kind = .many2one ∧ rd.via ≠ [] then rd.via else rd.inv

/-- Literals used as defaults. -/
inductive Lit where
  | none
  | bool (b : Bool)
  | int (i : Int)
  | flt (bits : UInt64)
  | str (s : Str)
  deriving DecidableEq, Repr

def Lit.toVal : Lit → Val
  | .none => .none
  | .bool b => .bool b
  | .int i => .int i
  | .flt f => .flt f
  | .str s => .str s

/-- A class of the generated packages, e.g. CIM15/IEC61970/Core/Terminal.py:22-104.
`init`: plain parameters of `__init__` with their defaults; `attrs`: `_attrs` with `_defaults`;
`enums`: `_enums`; `refs`: `_refs`. -/
structure ClassDef where
  name : Str
  init : List (Str × Lit)
  attrs : List (Str × Lit)
  enums : List (Str × Str)
  refs : List RefDef
  deriving DecidableEq, Repr

/-- A Python class object, represented by its MRO without `object` (single inheritance:
the class itself first, `Element` last). -/
abbrev Cls := List ClassDef

/-- `klass.__name__`. -/
def Cls.name : Cls → Str
  | [] => []
  | c :: _ => c.name

/-- Looks a reference up along the MRO (Python finds the first class defining the property). -/
def Cls.findRef (c : Cls) (n : Str) : Option RefDef :=
  c.findSome? fun d => d.refs.find? fun r => r.name = n

/-! ### Heap -/

/-- `next` is the next unused address; objects have a class and an instance `__dict__`. -/
structure Heap where
  next : Addr := 0
  cls : Addr → Option Cls := fun _ => .none
  dict : Addr → Str → Option Val := fun _ _ => .none
  lst : Addr → Option (List Val) := fun _ => .none

namespace Heap

def setDict (h : Heap) (a : Addr) (n : Str) (v : Val) : Heap :=
  { h with dict := fun a' n' => if a' = a ∧ n' = n then some v else h.dict a' n' }

def setLst (h : Heap) (l : Addr) (xs : List Val) : Heap :=
  { h with lst := fun l' => if l' = l then some xs else h.lst l' }

/-- Allocates an object of class `c` with an empty `__dict__`. -/
def allocObj (h : Heap) (c : Cls) : Heap :=
  { h with next := h.next + 1
           cls := fun a => if a = h.next then some c else h.cls a
           dict := fun a n => if a = h.next then .none else h.dict a n }

/-- Allocates a list. -/
def allocLst (h : Heap) (xs : List Val) : Heap :=
  { h with next := h.next + 1
           lst := fun l => if l = h.next then some xs else h.lst l }

end Heap

/-- Name of the private field behind a property: `"_" + R`. -/
def priv (n : Str) : Str := '_' :: n

abbrev HPy := Py Heap

namespace Hp
open Py

/-- `[..]`: a new list object. -/
def newList (xs : List Val) : HPy Val := fun h => .ok (.list h.next) (h.allocLst xs)

/-- `klass.__new__`: a new instance with empty `__dict__`. -/
def newObj (c : Cls) : HPy Addr := fun h => .ok h.next (h.allocObj c)

/-- Instance-dictionary read `v.<n>` for a name no class defines; anything that is not an object
with such an entry raises `AttributeError`. -/
def rawGet (v : Val) (n : Str) : HPy Val := fun h =>
  match v with
  | .obj a =>
    match h.dict a n with
    | some w => .ok w h
    | .none => .err .attributeError h
  | _ => .err .attributeError h

/-- Instance-dictionary write `v.<n> = w` for a name no class defines. -/
def rawSet (v : Val) (n : Str) (w : Val) : HPy Unit := fun h =>
  match v with
  | .obj a => .ok ⟨⟩ (h.setDict a n w)
  | _ => .err .attributeError h

/-- Elements visited by `for x in v` (lists, and strings character by character). -/
def iter (v : Val) : HPy (List Val) := fun h =>
  match v with
  | .list l => .ok ((h.lst l).getD []) h
  | .str s => .ok (s.map fun c => .str [c]) h
  | .opaque => .err .unmodelled h
  | _ => .err .typeError h

/-- Contents of a value on which `in` / `.append` / `.remove` is used; `none.append`, … raise. -/
def listOf (v : Val) : HPy (List Val) := fun h =>
  match v with
  | .list l => .ok ((h.lst l).getD []) h
  | .opaque => .err .unmodelled h
  | _ => .err .typeError h

/-- `v.append(x)`. -/
def append (v : Val) (x : Val) : HPy Unit := fun h =>
  match v with
  | .list l => .ok ⟨⟩ (h.setLst l ((h.lst l).getD [] ++ [x]))
  | _ => .err .attributeError h

/-- `v.remove(x)`: first occurrence; `ValueError` when absent. -/
def remove (v : Val) (x : Val) : HPy Unit := fun h =>
  match v with
  | .list l =>
    let xs := (h.lst l).getD []
    if x ∈ xs then .ok ⟨⟩ (h.setLst l (xs.erase x)) else .err .valueError h
  | _ => .err .attributeError h

end Hp
end Verif
