import Verif.Py.Heap
/-
The accessor methods and constructors of the generated CIM classes
(CIM14/**, CIM15/**; the line numbers below cite one representative of each template,
`tools/gen.py` checks that every class in the repository is an instance of one of them).

All functions follow the Python statement order; `self` is the object address `a`,
`r` the reference name (`R`), `inv` the name used for the opposite end.
`fuel` is Python's recursion limit; running out of it raises `RecursionError`.
-/
namespace Verif
namespace Cim
open Py Hp

/-- Method names a class gets from one reference declaration. -/
def RefDef.methods (r : RefDef) : List Str :=
  match r.kind with
  | .one2many | .one2one | .oneNoInv | .alias => [c!"get" ++ r.name, c!"set" ++ r.name]
  | .many2one | .many2many =>
    [c!"get" ++ r.name, c!"set" ++ r.name, c!"add" ++ r.name, c!"remove" ++ r.name]
  | .plainMany => [c!"add_" ++ r.name, c!"remove_" ++ r.name]
  | .plainOne | .absent => []

/-- Names found on the class rather than on the instance: metadata lists, accessor methods and
(over-approximated) every name starting with two underscores. Their values are `opaque`. -/
def classLevel (c : Cls) (n : Str) : Bool :=
  c!"__".isPrefixOf n ||
  n ∈ [c!"_attrs", c!"_attr_types", c!"_defaults", c!"_enums", c!"_refs", c!"_many_refs"] ||
  c.any fun d => d.refs.any fun r => n ∈ RefDef.methods r

/-- `getattr(self, n)`.
Property getters: CIM15/IEC61970/Core/Terminal.py:105-107 and 180-183 (`return self._R`);
`alias`: CIM15/IEC61970/Wires/ACLineSegment.py:115-121 (the inner `self.PerLengthImpedance` is
inlined to its backing field, and `type(x) is K` compares class names);
`plainOne`: class attribute `status = None` (CIM15/IEC61968/Common/Document.py). -/
def getAttr (a : Addr) (n : Str) : HPy Val := fun h =>
  match h.cls a with
  | none => .err .unmodelled h
  | some c =>
    match c.findRef n with
    | some rd =>
      match rd.kind with
      | .one2many | .many2one | .one2one | .many2many | .oneNoInv => rawGet (.obj a) (priv n) h
      | .alias =>
        match rawGet (.obj a) (priv rd.inv) h with
        | .ok (.obj b) h' =>
          if (h'.cls b).map Cls.name = some rd.aliasCls then .ok (.obj b) h' else .ok .none h'
        | .ok _ h' => .ok .none h'
        | .err e h' => .err e h'
      | .plainOne =>
        match h.dict a n with
        | some v => .ok v h
        | none => .ok .none h
      | .plainMany | .absent => rawGet (.obj a) n h
    | none =>
      match h.dict a n with
      | some v => .ok v h
      | none => if classLevel c n then .ok .opaque h else .err .attributeError h

/-- `v.n` for an arbitrary value `v`; values other than CIM objects have none of the names used. -/
def getAttrV (v : Val) (n : Str) : HPy Val :=
  match v with
  | .obj a => getAttr a n
  | .opaque => throw .unmodelled
  | _ => throw .attributeError

/-- Setter of a to-one reference whose opposite end is a collection,
CIM15/IEC61970/Core/Terminal.py:185-193 (`setConductingEquipment`):
```
if self._R is not None:
    filtered = [x for x in self.R.I if x != self]
    self._R._I = filtered
self._R = value
if self._R is not None:
    if self not in self._R._I:
        self._R._I.append(self)
``` -/
def setOne2Many (a : Addr) (r inv : Str) (v : Val) : HPy Unit := do
  let cur ← rawGet (.obj a) (priv r)
  if cur ≠ .none then
    let me ← getAttr a r
    let ys ← getAttrV me inv
    let xs ← iter ys
    let filtered ← newList (xs.filter (· ≠ .obj a))
    rawSet cur (priv inv) filtered
  rawSet (.obj a) (priv r) v
  if v ≠ .none then
    let l ← rawGet v (priv inv)
    let xs ← listOf l
    if .obj a ∈ xs then Py.pure ⟨⟩ else append l (.obj a)

/-- Body of the second loop of the many-to-many setter,
CIM15/IEC61970/Wires/TransformerEnd.py (`setToMeshImpedance`):
`if self not in r._I: r._I.append(self)`. -/
def linkBack (a : Addr) (inv : Str) (x : Val) : HPy Unit := do
  let l ← rawGet x (priv inv)
  let xs ← listOf l
  if .obj a ∈ xs then Py.pure ⟨⟩ else append l (.obj a)

/-- Setter of a many-to-many collection, CIM15/IEC61970/Wires/TransformerEnd.py
(`setToMeshImpedance`):
```
for p in self._R:
    filtered = [q for q in p.I if q != self]
    self._R._I = filtered          # `self._R` is a list: AttributeError
for r in value:
    if self not in r._I:
        r._I.append(self)
self._R = value
```
The second `for` sees elements appended to `value` while it runs; at most `self` can be
appended to it, hence the second `forEach`. -/
def setMany2Many (a : Addr) (r inv : Str) (v : Val) : HPy Unit := do
  let l ← rawGet (.obj a) (priv r)
  let ps ← iter l
  forEach (fun p => do
    let q ← getAttrV p inv
    let qs ← iter q
    let filtered ← newList (qs.filter (· ≠ .obj a))
    let me ← rawGet (.obj a) (priv r)
    rawSet me (priv inv) filtered) ps
  let ys ← iter v
  forEach (linkBack a inv) ys
  let ys' ← iter v
  forEach (linkBack a inv) (ys'.drop ys.length)
  rawSet (.obj a) (priv r) v

/-- Setter of a one-to-one reference, CIM15/IEC61970/Core/Terminal.py:109-116 (`setBushingInfo`):
```
if self._R is not None:
    self._R._I = None
self._R = value
if self._R is not None:
    self._R.I = None
    self._R._I = self
```
`set x n w` is the nested property assignment `x.n = w`. -/
def setOne2OneW (set : Val → Str → Val → HPy Unit) (a : Addr) (r inv : Str) (v : Val) :
    HPy Unit := do
  let cur ← rawGet (.obj a) (priv r)
  if cur ≠ .none then
    rawSet cur (priv inv) .none
  rawSet (.obj a) (priv r) v
  if v ≠ .none then
    set v inv .none
    let me ← rawGet (.obj a) (priv r)
    rawSet me (priv inv) (.obj a)

/-- Setter of a collection whose opposite end is to-one, CIM15/IEC61970/Core/Terminal.py:125-130
(`setTieFlow`):
```
for x in self._R:
    x.I = None
for y in value:
    y._I = self
self._R = value
```
`set x n w` is the nested property assignment `x.n = w`. -/
def setMany2OneW (set : Val → Str → Val → HPy Unit) (a : Addr) (r inv : Str) (v : Val) :
    HPy Unit := do
  let l ← rawGet (.obj a) (priv r)
  let xs ← iter l
  forEach (fun x => set x inv .none) xs
  let ys ← iter v
  forEach (fun y => rawSet y (priv inv) (.obj a)) ys
  rawSet (.obj a) (priv r) v

/-- `setattr(self, n, v)`, dispatching on the class of `self`; `setA` and `setV` perform the nested
assignments of an `alias` and of the property setters. -/
def setAttrW (setA : Addr → Str → Val → HPy Unit) (setV : Val → Str → Val → HPy Unit)
    (a : Addr) (n : Str) (v : Val) : HPy Unit := fun h =>
  match h.cls a with
  | none => .err .unmodelled h
  | some c =>
    match c.findRef n with
    | some rd =>
      match rd.kind with
      | .one2many => setOne2Many a n rd.inv v h
      | .one2one => setOne2OneW setV a n rd.inv v h
      | .many2one => setMany2OneW setV a n rd.inv v h
      | .many2many => setMany2Many a n rd.inv v h
      -- CIM15/IEC61970/Wires/ACLineSegment.py:123-124 `self.PerLengthImpedance = value`
      | .alias => setA a rd.inv v h
      -- CIM15/IEC61970/OperationalLimits/CheckPoint.py:47-48 `self._Equipment = value`
      | .oneNoInv => rawSet (.obj a) (priv n) v h
      | .plainOne | .plainMany | .absent => rawSet (.obj a) n v h
    | none => if c!"__".isPrefixOf n then .err .unmodelled h else rawSet (.obj a) n v h

/-- `v.n = w` for an arbitrary value `v`. -/
def setAttrVW (setA : Addr → Str → Val → HPy Unit) (v : Val) (n : Str) (w : Val) : HPy Unit :=
  match v with
  | .obj a => setA a n w
  | .opaque => throw .unmodelled
  | _ => throw .attributeError

/-- `setattr(self, n, v)` under a recursion limit. -/
def setAttr : Nat → Addr → Str → Val → HPy Unit
  | 0, _, _, _ => throw .recursionError
  | 1, a, n, v => setAttrW (fun _ _ _ => throw .recursionError) (fun _ _ _ => throw .recursionError) a n v
  | fuel + 2, a, n, v =>
    setAttrW (fun a n v => setAttr (fuel + 1) a n v)
      (fun x n w => setAttrVW (fun a n w => setAttr fuel a n w) x n w) a n v

/-- `v.n = w` for an arbitrary value `v`. -/
def setAttrV : Nat → Val → Str → Val → HPy Unit
  | 0, _, _, _ => throw .recursionError
  | fuel + 1, v, n, w => setAttrVW (setAttr fuel) v n w

def setOne2One (fuel : Nat) := setOne2OneW (setAttrV fuel)
def setMany2One (fuel : Nat) := setMany2OneW (setAttrV fuel)

theorem setAttr_succ (fuel : Nat) (a : Addr) (n : Str) (v : Val) :
    setAttr (fuel + 1) a n v =
      setAttrW (setAttr fuel) (setAttrV fuel) a n v := by
  cases fuel <;> rfl

/-- One round of `addR`.
`many2one`, CIM15/IEC61970/Core/Terminal.py:134-136: `obj.I = self`
(`addDup`, CIM15/IEC61970/Core/Equipment.py `addOperationalLimitSet`: then `self.R.append(obj)`);
`many2many`, CIM15/IEC61970/Wires/TransformerEnd.py `addToMeshImpedance`:
`if self not in obj._I: obj._I.append(self)` then `self._R.append(obj)`. -/
def add1 (fuel : Nat) (a : Addr) (rd : RefDef) (x : Val) : HPy Unit :=
  match rd.kind with
  | .many2one => do
    setAttrV fuel x rd.inv (.obj a)
    if rd.addDup then
      let l ← getAttr a rd.name
      append l x
  | .many2many => do
    linkBack a rd.inv x
    let me ← rawGet (.obj a) (priv rd.name)
    append me x
  | _ => throw .attributeError

/-- One round of `removeR`.
`many2one`, CIM15/IEC61970/Core/Terminal.py:138-140: `obj.I = None`
(`addDup`: then `self.R.remove(obj)`);
`many2many`: `if self in obj._I: obj._I.remove(self)` then `self._R.remove(obj)`. -/
def remove1 (fuel : Nat) (a : Addr) (rd : RefDef) (x : Val) : HPy Unit :=
  match rd.kind with
  | .many2one => do
    setAttrV fuel x rd.inv .none
    if rd.addDup then
      let l ← getAttr a rd.name
      Hp.remove l x
  | .many2many => do
    let l ← rawGet x (priv rd.inv)
    let xs ← listOf l
    if .obj a ∈ xs then Hp.remove l (.obj a) else Py.pure ⟨⟩
    let me ← rawGet (.obj a) (priv rd.name)
    Hp.remove me x
  | _ => throw .attributeError

/-- `self.addR(*xs)`; a reference without such a method raises `AttributeError`. -/
def callAdd (fuel : Nat) (a : Addr) (r : Str) (xs : List Val) : HPy Unit := fun h =>
  match h.cls a with
  | none => .err .unmodelled h
  | some c =>
    match c.findRef r with
    | some rd =>
      if rd.kind = .many2one ∨ rd.kind = .many2many then forEach (add1 fuel a rd) xs h
      else .err .attributeError h
    | none => .err .attributeError h

/-- `self.removeR(*xs)`. -/
def callRemove (fuel : Nat) (a : Addr) (r : Str) (xs : List Val) : HPy Unit := fun h =>
  match h.cls a with
  | none => .err .unmodelled h
  | some c =>
    match c.findRef r with
    | some rd =>
      if rd.kind = .many2one ∨ rd.kind = .many2many then forEach (remove1 fuel a rd) xs h
      else .err .attributeError h
    | none => .err .attributeError h

/-- `self.add_R(*xs)` of a `plainMany` reference,
CIM14/IEC61970/Protection/ProtectionEquipment.py:69-71: `self.R.append(obj)`. -/
def callAddPlain (a : Addr) (r : Str) (xs : List Val) : HPy Unit := do
  forEach (fun x => do let l ← getAttr a r; append l x) xs

/-! ### Constructors -/

/-- Parameter names of `__init__`, in order (`tools/gen.py` checks that they are the plain
attributes followed by `_refs`; CIM15 `EnergyConsumerPhase` has one extra, first, parameter). -/
def ClassDef.params (d : ClassDef) : List Str :=
  d.init.map Prod.fst ++ (d.refs.filter (·.kind ≠ .absent)).map (·.name)

/-- Value passed for a parameter, `None` when omitted (reference parameters default to `None`). -/
def kwRef (kw : List (Str × Val)) (n : Str) : Val := (kw.lookup n).getD .none

/-- `[] if X is None else X`. -/
def orNewList (v : Val) : HPy Val :=
  if v = .none then newList [] else Py.pure v

/-- Initialisation of one reference in `__init__`, CIM15/IEC61970/Core/Terminal.py:54-100:
`self._R = None; self.R = R` or `self._R = []; self.R = [] if R is None else R`. -/
def initRef (fuel : Nat) (a : Addr) (kw : List (Str × Val)) (rd : RefDef) : HPy Unit :=
  match rd.kind with
  | .one2many | .one2one => do
    rawSet (.obj a) (priv rd.name) .none
    setAttr fuel a rd.name (kwRef kw rd.name)
  | .many2one | .many2many => do
    let l ← newList []
    rawSet (.obj a) (priv rd.name) l
    let v ← orNewList (kwRef kw rd.name)
    setAttr fuel a rd.name v
  | .plainOne => rawSet (.obj a) rd.name (kwRef kw rd.name)
  | .oneNoInv => rawSet (.obj a) (priv rd.name) (kwRef kw rd.name)
  | .plainMany => do
    let v ← orNewList (kwRef kw rd.name)
    rawSet (.obj a) rd.name v
  | .alias | .absent => Py.pure ⟨⟩

/-- `alias` references of a class and the properties they forward to. -/
def aliasGroup (d : ClassDef) : List Str :=
  (d.refs.filter (·.kind = .alias)).flatMap fun r => [r.name, r.inv]

/-- The impedance block of CIM15/IEC61970/Wires/ACLineSegment.py:71-86: private fields first, then at most
one of the alternatives may be given, otherwise `ValueError`. -/
def initAliases (fuel : Nat) (a : Addr) (kw : List (Str × Val)) (d : ClassDef) : HPy Unit := do
  let names := (aliasGroup d).eraseDups
  forEach (fun n => rawSet (.obj a) (priv n) .none) names
  match names.filter (fun n => kwRef kw n ≠ .none) with
  | [] => Py.pure ⟨⟩
  | [n] => setAttr fuel a n (kwRef kw n)
  | _ => throw .valueError

/-- Body of one class's `__init__` up to the `super().__init__` call. -/
def initClass (fuel : Nat) (a : Addr) (kw : List (Str × Val)) (d : ClassDef) : HPy Unit := do
  forEach (fun (p : Str × Lit) => rawSet (.obj a) p.1 ((kw.lookup p.1).getD p.2.toVal)) d.init
  initAliases fuel a kw d
  forEach (initRef fuel a kw) (d.refs.filter fun r => r.name ∉ aliasGroup d)

/-- `__init__` along the MRO: each class consumes its own keywords and passes the rest on
(`*args, **kw_args`); the last class (`Element`, or a value class deriving from `object`) accepts
no others and raises `TypeError` before its body runs (CIM15/Element.py:24). -/
def initChain (fuel : Nat) (a : Addr) : List (Str × Val) → Cls → HPy Unit
  | _, [] => Py.pure ⟨⟩
  | kw, [d] =>
    if kw.all (fun p => p.1 ∈ ClassDef.params d) then initClass fuel a kw d
    else throw .typeError
  | kw, d :: d' :: ds => do
    initClass fuel a kw d
    initChain fuel a (kw.filter fun p => p.1 ∉ ClassDef.params d) (d' :: ds)

/-- `klass(k1=v1, …)`. -/
def construct (fuel : Nat) (c : Cls) (kw : List (Str × Val)) : HPy Addr := do
  let a ← newObj c
  initChain fuel a kw c
  Py.pure a

/-- `klass(v)`: the positional argument goes to the first parameter of the first class with one. -/
def construct1 (fuel : Nat) (c : Cls) (v : Val) : HPy Addr :=
  match (c.flatMap ClassDef.params).head? with
  | some p => construct fuel c [(p, v)]
  | none => throw .typeError

end Cim
end Verif
