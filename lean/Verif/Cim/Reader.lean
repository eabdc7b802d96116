import Verif.Cim.Obj
import Verif.Py.Float
import Verif.Xml.Tree
/-
PyCIM/RDFXMLReader.py, function by function.  The source is a text (file-like object with `seek`, or a
path: both passes see the same text); `Xml.parse` is what `iterparse` delivers for it.
Log messages are kept as values, in order.
-/
namespace Verif
namespace Cim
open Py Hp Xml

/-- A Python dict from identifiers to CIM objects, in insertion order. -/
abbrev Dict := List (Str × Addr)

/-- `d[k] = v`: an existing key keeps its position. -/
def Dict.set (d : Dict) (k : Str) (v : Addr) : Dict :=
  match d with
  | [] => [(k, v)]
  | (k', v') :: d => if k' = k then (k, v) :: d else (k', v') :: Dict.set d k v

/-- A package map with the classes it leads to: `packageMap[tag]` names the module,
`getattr(__import__(..), tag)` is the class (lines 96-106; for the maps of the repository both
steps are `Gen.RPkg.resolve`). -/
abbrev PkgMap := List (Str × Cls)

/-- Log records. -/
inductive Log where
  /-- line 256 -/
  | noRdf
  /-- line 273 -/
  | noCim
  /-- line 288 -/
  | noVersion
  /-- lines 98-99 -/
  | noModule (tag uuid : Str)
  /-- lines 137-138 -/
  | missing (tag uuid : Str)
  /-- lines 189-192 -/
  | dangling (cls uuid : Str)
  /-- lines 153, 217-219 -/
  | noAttr (cls attr : Str) (count : Nat)
  deriving DecidableEq, Repr

/-- Counter of `logger_errors_grouped` (lines 153-157). -/
def bump (g : List ((Str × Str) × Nat)) (k : Str × Str) : List ((Str × Str) × Nat) :=
  match g with
  | [] => [(k, 1)]
  | (k', n) :: g => if k' = k then (k', n + 1) :: g else (k', n) :: bump g k

/-- Everything a call can change: the object heap, the dict `d` (that is `start_dict` itself when it
is given), the log and the counters. -/
structure RState where
  heap : Heap
  d : Dict
  log : List Log := []
  grouped : List ((Str × Str) × Nat) := []

abbrev RPy := Py RState

/-- Heap operations inside the reader. -/
def liftH {α : Type} (x : HPy α) : RPy α := fun s =>
  match x s.heap with
  | .ok a h => .ok a { s with heap := h }
  | .err e h => .err e { s with heap := h }

def logIt (l : Log) : RPy Unit := Py.modify fun s => { s with log := s.log ++ [l] }

/-- Names computed from the namespaces: `base` (line 70), `"{%s}ID"`, `"{%s}about"`,
`"{%s}resource"` with the rdf namespace, and the package map in use. -/
structure Cfg where
  fuel : Nat
  base : Str
  rdf : Str
  pm : Option PkgMap

/-- `"{%s}name" % ns_rdf`. -/
def Cfg.key (g : Cfg) (n : Str) : Str := '{' :: g.rdf ++ '}' :: n

/-- Lines 88-92 and 127-131: the identifier of an element. -/
def Cfg.idOf (g : Cfg) (attrs : List (Str × Str)) : Option Str :=
  match attrs.lookup (g.key c!"ID") with
  | some u => some u
  | none => (attrs.lookup (g.key c!"about")).map (·.drop 1)

/-- `elem.tag[:m] == base`. -/
def Cfg.inBase (g : Cfg) (tag : Str) : Bool := tag.take g.base.length = g.base

/-- `elem.tag[m:]`. -/
def Cfg.local (g : Cfg) (tag : Str) : Str := tag.drop g.base.length

/-! ### First pass (lines 83-112) -/

/-- Lines 93-109 for an element with identifier. -/
def instantiate (g : Cfg) (tag uuid : Str) : RPy Unit :=
  match g.pm with
  | none => throw .typeError
  | some pm =>
    match pm.lookup tag with
    | none => logIt (.noModule tag uuid)
    | some c => do
      let a ← liftH (construct g.fuel c [(c!"UUID", .str uuid)])
      Py.modify fun s => { s with d := s.d.set uuid a }

/-- One round of the loop of lines 83-112. `cleared`: `root.clear()` has run before, so that the
root element has lost its attributes. -/
def step1 (g : Cfg) (cleared : Bool) (e : Ev) : RPy Unit :=
  match e with
  | .fin root tag attrs _ =>
    if g.inBase tag then
      match g.idOf (if root && cleared then [] else attrs) with
      | some uuid => instantiate g (g.local tag) uuid
      | none => Py.pure ⟨⟩
    else Py.pure ⟨⟩
  | _ => Py.pure ⟨⟩

def loop1 (g : Cfg) (cleared : Bool) : List Ev → RPy Unit
  | [] => Py.pure ⟨⟩
  | e :: es => do step1 g cleared e; loop1 g true es

/-! ### Second pass (lines 124-215) -/

/-- `try: … except TypeError: pass` (lines 167-180); changes made before the exception stay. -/
def exceptTypeError (x : RPy Unit) : RPy Unit := fun s =>
  match x s with
  | .err .typeError s' => .ok ⟨⟩ s'
  | r => r

/-- Lines 168-178: the value of `typ(elem.text)` (or the boolean) is assigned. `none` as a text
becomes `None`: `str.title(None)`, `int(None)`, `float(None)`, `list(None)` raise `TypeError`,
`str(None)` is `'None'`. `type(None)(..)` raises `TypeError`. A CIM object as current value makes
`typ` its class. -/
def setLiteral (g : Cfg) (a : Addr) (attr : Str) (cur : Val) (text : Option Str) : RPy Unit :=
  match cur with
  | .bool _ =>
    match text with
    | none => throw .typeError
    | some t => liftH (setAttr g.fuel a attr (.bool (Str.title t = c!"True")))
  | .int _ =>
    match text with
    | none => throw .typeError
    | some t =>
      match Str.parseInt t with
      | none => throw .valueError
      | some i => liftH (setAttr g.fuel a attr (.int i))
  | .flt _ =>
    match text with
    | none => throw .typeError
    | some t =>
      match Flt.parse t with
      | none => throw .valueError
      | some b => liftH (setAttr g.fuel a attr (.flt b))
  | .str _ => liftH (setAttr g.fuel a attr (.str (text.getD c!"None")))
  | .none => throw .typeError
  | .list _ =>
    match text with
    | none => throw .typeError
    | some t => liftH do
      let l ← newList (t.map fun c => .str [c])
      setAttr g.fuel a attr l
  | .obj b => liftH do
    let h ← Py.get
    match h.cls b with
    | none => throw .unmodelled
    | some c =>
      let o ← construct1 g.fuel c (match text with | some t => .str t | none => .none)
      setAttr g.fuel a attr (.obj o)
  | .opaque => throw .unmodelled

/-- Lines 184-201: a resource starting with "#". Objects compare equal to `None` only if they are
`None`. -/
def setReference (g : Cfg) (a : Addr) (attr : Str) (cur : Val) (uuid : Str) : RPy Unit := do
  let s ← Py.get
  match s.d.lookup uuid with
  | none => logIt (.dangling (((s.heap.cls a).map Cls.name).getD []) uuid)
  | some b =>
    match cur with
    | .none => liftH (setAttr g.fuel a attr (.obj b))
    | .list _ => liftH (callAdd g.fuel a attr [.obj b])
    | .opaque => throw .unmodelled
    | _ => Py.pure ⟨⟩

/-- Lines 206-208: an enumeration value. -/
def setEnum (g : Cfg) (a : Addr) (attr : Str) (res : Str) : RPy Unit :=
  match Str.rsplit1 '.' res with
  | some v => liftH (setAttr g.fuel a attr (.str v))
  | none => throw .indexError

/-- Lines 150-208: one property element. `hasattr` catches `AttributeError` only. -/
def handleProp (g : Cfg) (a : Addr) (tag : Str) (attrs : List (Str × Str)) (text : Option Str) :
    RPy Unit := fun s =>
  let attr := Str.afterLast '.' (g.local tag)
  match getAttr a attr s.heap with
  | .err .attributeError _ =>
    .ok ⟨⟩ { s with grouped := bump s.grouped (((s.heap.cls a).map Cls.name).getD [], attr) }
  | .err e _ => .err e s
  | .ok cur _ =>
    match attrs.lookup (g.key c!"resource") with
    | none => exceptTypeError (setLiteral g a attr cur text) s
    | some [] => .err .indexError s
    | some (c :: cs) =>
      if c = '#' then setReference g a attr cur cs s else setEnum g a attr (c :: cs) s

/-- One event of the second pass: outside (`none`) or inside (`some a`) the element of object `a`. -/
def step2 (g : Cfg) (inner : Option Addr) (e : Ev) : RPy (Option Addr) :=
  match inner with
  | none =>
    match e with
    | .start tag attrs =>
      if g.inBase tag then
        match g.idOf attrs with
        | none => Py.pure none
        | some uuid => do
          let s ← Py.get
          match s.d.lookup uuid with
          | some a => Py.pure (some a)
          | none => do
            logIt (.missing (g.local tag) uuid)
            Py.pure none
      else Py.pure none
    | _ => Py.pure none
  | some a =>
    match e with
    | .fin _ tag attrs text =>
      if g.inBase tag then
        match g.idOf attrs with
        | some _ => Py.pure none
        | none => do
          handleProp g a tag attrs text
          Py.pure (some a)
      else Py.pure (some a)
    | _ => Py.pure (some a)

def loop2 (g : Cfg) (inner : Option Addr) : List Ev → RPy Unit
  | [] => Py.pure ⟨⟩
  | e :: es => do
    let i ← step2 g inner e
    loop2 g i es

/-- Iterating over `iterparse`: the events after the root's start event, then `ParseError` if the
text is malformed. An empty stream without error does not exist (`Xml.isDoc_of_ok`). -/
def notNs : Ev → Bool
  | .ns _ _ => false
  | _ => true

def overEvents (s : Stream) (body : List Ev → RPy Unit) : RPy Unit :=
  match s.evs.filter notNs with
  | [] => throw .parseError
  | _ :: es => do
    body es
    if s.ok then Py.pure ⟨⟩ else throw .parseError

/-! ### Namespaces -/

/-- `xmlns` (lines 230-248): declarations up to the first end event; later ones win. -/
def xmlnsLoop (ok : Bool) (m : List (Str × Str)) : List Ev → Option (List (Str × Str))
  | [] => if ok then some m else none
  | .ns p u :: es => xmlnsLoop ok ((p, u) :: m) es
  | .start _ _ :: es => xmlnsLoop ok m es
  | .fin _ _ _ _ :: _ => some m

def xmlns (s : Stream) : RPy (List (Str × Str)) :=
  match xmlnsLoop s.ok [] s.evs with
  | some m => Py.pure m
  | none => throw .parseError

/-- `get_rdf_ns` (lines 251-258). -/
def getRdfNs (m : List (Str × Str)) : RPy Str :=
  match m.lookup c!"rdf" with
  | some u => Py.pure u
  | none => do
    logIt .noRdf
    Py.pure c!"http://www.w3.org/1999/02/22-rdf-syntax-ns#"

def nsURI14 : Str := c!"http://iec.ch/TC57/2009/CIM-schema-cim14"
def nsURI15 : Str := c!"http://iec.ch/TC57/2010/CIM-schema-cim15"
def nsURI16 : Str := c!"http://iec.ch/TC57/2013/CIM-schema-cim16"

/-- The two package maps of the repository and the recursion limit. -/
structure Env where
  fuel : Nat
  cim14 : PkgMap
  cim15 : PkgMap

/-- `get_cim_ns` (lines 261-292; lines 268-270 are `Str.stripHash`). -/
def getCimNs (env : Env) (m : List (Str × Str)) : RPy (Str × PkgMap) := do
  let ns ← match m.lookup c!"cim" with
    | some u => Py.pure (Str.stripHash u)
    | none => do
      logIt .noCim
      Py.pure []
  if ns = nsURI14 then Py.pure (ns, env.cim14)
  else if ns = nsURI15 then Py.pure (ns, env.cim15)
  else if ns = nsURI16 then Py.pure (ns, env.cim15)
  else do
    logIt .noVersion
    Py.pure (ns, env.cim15)

/-- `"{%s#}" % nsURI` (line 70). -/
def baseOf (uri : Option Str) : Str := '{' :: uri.getD c!"None" ++ c!"#}"

/-- Lines 61-70: the configuration, or `ValueError`. -/
def configure (env : Env) (st : Stream) (packageMap : Option PkgMap) (nsURI : Option Str) :
    RPy Cfg := do
  let m ← xmlns st
  let rdf ← getRdfNs m
  if (nsURI.getD [] != []) != (packageMap.getD [] != []) then throw .valueError
  else if nsURI.isNone && packageMap.isNone then do
    let p ← getCimNs env m
    Py.pure ⟨env.fuel, baseOf (some p.1), rdf, some p.2⟩
  else Py.pure ⟨env.fuel, baseOf nsURI, rdf, packageMap⟩

/-- Lines 216-219: the grouped messages. -/
def flushLog : RPy Unit := Py.modify fun s =>
  { s with log := s.log ++ s.grouped.map fun p => .noAttr p.1.1 p.1.2 p.2, grouped := [] }

/-- `cimread(source, packageMap, nsURI, start_dict)` (lines 31-227). The dict `d` of the state is
`start_dict`, or a new empty dict when `start_dict` is `None`; it is what the call returns. -/
def cimread (env : Env) (source : Str) (packageMap : Option PkgMap) (nsURI : Option Str) :
    RPy Unit := do
  let st := parse source
  let g ← configure env st packageMap nsURI
  overEvents st (loop1 g false)
  overEvents st (loop2 g none)
  flushLog

/-- A call on a given heap and start_dict. -/
def read (env : Env) (source : Str) (packageMap : Option PkgMap) (nsURI : Option Str)
    (startDict : Option Dict) (h : Heap) : Res RState Unit :=
  cimread env source packageMap nsURI { heap := h, d := startDict.getD [] }

end Cim
end Verif
