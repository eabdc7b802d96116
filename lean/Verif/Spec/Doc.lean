import Verif.Py.NumSpec
import Verif.Cim.Create
import Verif.Props.Frame
/-
What a CIM RDF/XML document says: its statements, the objects they are about, when a statement makes
sense for the class of its subject, and the values and links it implies.  Everything is in terms of
identifiers.
-/
namespace Verif
namespace Spec
open Xml Cim

/-- A property element: identifier of the object, attribute name, `rdf:resource` and text. -/
structure Stmt where
  subj : Str
  attr : Str
  res : Option Str
  text : Option Str
  deriving DecidableEq

namespace Voc
variable (v : Voc)

/-- The CIM name of a qualified tag. -/
def name? (tag : Str) : Option Str :=
  let b := '{' :: v.uri ++ c!"#}"
  if tag.take b.length = b then some (tag.drop b.length) else none

/-- The identifier of an element. -/
def id? (e : Elem) : Option Str :=
  match e.attrs.lookup (v.rdfAttr c!"ID") with
  | some u => some u
  | none => (e.attrs.lookup (v.rdfAttr c!"about")).map (·.drop 1)

/-- The identifier of an element describing an object. -/
def subj? (e : Elem) : Option Str := if (v.name? e.tag).isSome then v.id? e else none

/-- What an element inside the description of `u` says. -/
def stmt? (u : Str) (e : Elem) : Option Stmt :=
  match v.id? e with
  | some _ => none
  | none => (v.name? e.tag).map fun n => ⟨u, Str.afterLast '.' n, e.attrs.lookup (v.rdfAttr c!"resource"), e.text⟩

mutual
/-- The statements of an element that is, or contains, descriptions of objects. -/
def stmts : Elem → List Stmt
  | .mk ds t as x ks =>
    match v.subj? (.mk ds t as x ks) with
    | some u => (Elem.postAll ks).filterMap (v.stmt? u)
    | none => stmtsAll ks
def stmtsAll : List Elem → List Stmt
  | [] => []
  | k :: ks => stmts k ++ stmtsAll ks
end

mutual
/-- No description of an object is inside another one. -/
def Flat : Elem → Prop
  | .mk ds t as x ks =>
    match v.subj? (.mk ds t as x ks) with
    | some _ => ∀ e ∈ Elem.postAll ks, v.subj? e = none
    | none => FlatAll ks
def FlatAll : List Elem → Prop
  | [] => True
  | k :: ks => Flat k ∧ FlatAll ks
end

/-- The statements of a document. -/
def says (t : Elem) : List Stmt := v.stmtsAll t.kids

/-- The class of the last element describing `u` whose class is known. -/
def classOf (t : Elem) (u : Str) : Option Cls :=
  t.inst.reverse.findSome? fun e => if v.id? e = some u then (v.name? e.tag).bind fun n => v.map.lookup n else none

/-- The classes of the described objects are regular and have an identifier attribute. -/
def Instantiable (t : Elem) : Prop :=
  ∀ e ∈ t.inst, ∀ n u c, v.Describes e n u → v.map.lookup n = some c → WFCls c ∧ Ident c

theorem name?_iff {v : Voc} {tag n : Str} : v.name? tag = some n ↔ tag = v.tagOf n := by
  unfold name? tagOf
  dsimp only
  constructor
  · intro h
    split at h
    · rename_i hb
      cases h
      have := List.take_append_drop (('{' :: v.uri ++ c!"#}").length) tag
      rw [hb] at this
      exact this.symm
    · cases h
  · rintro rfl
    rw [if_pos List.take_left, List.drop_left]

theorem id?_iff {v : Voc} {e : Elem} {u : Str} : v.id? e = some u ↔ v.HasId e u := idOf_iff (f := 0)

end Voc

/-! ### The objects the statements are about -/

/-- The reference a name stands for: a forwarding one stands for the one it forwards to. -/
def _root_.Verif.Cls.real (c : Cls) (n : Str) : Str :=
  match c.findRef n with
  | some rd => if rd.kind = .alias then rd.inv else n
  | none => n

/-- Class and stored attribute value of every identifier before the property elements are read. -/
structure Ctx where
  cls : Str → Option Cls
  val : Str → Str → Option Val

/-- Default value of an attribute: the classes of the MRO assign theirs in order, base classes last. -/
def dflt (c : Cls) (n : Str) : Option Lit := c.reverse.findSome? fun d => d.init.lookup n

/-- A reference without opposite end. -/
def oneWay : Kind → Bool
  | .plainOne | .oneNoInv => true
  | _ => false

/-- Value of an attribute (or reference without opposite end) of a new object with identifier `u`. -/
def fresh (c : Cls) (u n : Str) : Option Val :=
  match c.findRef n with
  | some rd => if oneWay rd.kind then some .none else none
  | none => if n = uuidN then some (.str u) else (dflt c n).map Lit.toVal

/-- The identifiers of a document, and those of start_dict. -/
def Voc.ctx (v : Voc) (t : Elem) (h : Heap) (sd : Dict) : Ctx where
  cls u := match v.classOf t u with
    | some c => some c
    | none => (sd.lookup u).bind h.cls
  val u n := match v.classOf t u with
    | some c => fresh c u n
    | none => (sd.lookup u).bind fun a => (h.cls a).bind fun c => (cellOf c n).bind (h.dict a)

/-- Identifier a statement refers to: a resource starting with "#". -/
def Stmt.target (st : Stmt) : Option Str :=
  match st.res with
  | some (c :: u) => if c = '#' then some u else none
  | _ => none

/-- The text of an element (`none`: empty) can be converted to a type: numbers must be denoted. -/
def Usable : Ty → Option Str → Prop
  | .int, some x => ∃ i, IsInt x i
  | .flt, some x => ∃ b, IsFloat x b
  | _, _ => True

theorem usable_iff {t : Ty} {x : Option Str} : Usable t x ↔ convert t x ≠ none := by
  cases t <;> cases x <;> simp only [Usable, convert, ne_eq, reduceCtorEq, not_false_eq_true, Option.map_eq_none_iff]
  · rw [← ne_eq, Option.ne_none_iff_exists']
    simp only [Flt.parseInt_iff]
  · rw [← ne_eq, Option.ne_none_iff_exists']
    simp only [Flt.parse_iff]

/-- Statements that make sense. -/
inductive Fits (X : Ctx) : Stmt → Prop
  /-- about an element whose class is not known -/
  | stray {u n r x} : X.cls u = none → Fits X ⟨u, n, r, x⟩
  /-- a text for an attribute of a type the text can be converted to -/
  | lit {u n x c l} : X.cls u = some c → c.findRef n = none → Pub n → X.val u n = some (Lit.toVal l) →
      Usable l.ty x → Fits X ⟨u, n, none, x⟩
  /-- an enumeration value for an attribute holding a string or None -/
  | enum {u n x c v r w} : X.cls u = some c → c.findRef n = none → Pub n → X.val u n = some v →
      (v = .none ∨ ∃ y, v = .str y) → r.head? ≠ some '#' → Str.rsplit1 '.' r = some w → Fits X ⟨u, n, some r, x⟩
  /-- an attribute the object does not have -/
  | unknown {u n r x c} : X.cls u = some c → c.findRef n = none → Pub n → X.val u n = none →
      classLevel c n = false → Fits X ⟨u, n, r, x⟩
  /-- a reference to an unknown identifier, under the name of a reference or an attribute -/
  | dangling {u n u' x c} : X.cls u = some c →
      ((∃ rd, c.findRef (c.real n) = some rd ∧ regular rd.kind = true) ∨ (X.val u n).isSome) →
      (c.findRef n = none → Pub n) →
      X.cls u' = none → Fits X ⟨u, n, some ('#' :: u'), x⟩
  /-- a bidirectional reference to an object whose class declares the opposite end -/
  | ref {u n u' x c rd c' rd'} : X.cls u = some c → c.findRef n = some rd → regular rd.kind = true →
      rd.addDup = false → X.cls u' = some c' → c'.findRef rd.far = some rd' → rd'.kind = rd.kind.opp → rd'.far = n →
      Fits X ⟨u, n, some ('#' :: u'), x⟩
  /-- a reference without opposite end -/
  | way {u n u' x c rd c' v} : X.cls u = some c → c.findRef n = some rd → oneWay rd.kind = true →
      X.cls u' = some c' → X.val u n = some v → (v = .none ∨ ∃ b, v = .obj b) → Fits X ⟨u, n, some ('#' :: u'), x⟩
  /-- a reference that forwards to a to-one end of an association -/
  | «alias» {u n u' x c rd rda c' rd'} : X.cls u = some c → c.findRef n = some rd → rd.kind = .alias →
      c.findRef rd.inv = some rda → rda.kind = .one2many → X.cls u' = some c' → c'.findRef rda.inv = some rd' →
      rd'.kind = .many2one → rd'.far = rd.inv → Fits X ⟨u, n, some ('#' :: u'), x⟩
  /-- an empty element of a collection -/
  | void {u n c rd} : X.cls u = some c → c.findRef n = some rd → regular rd.kind = true → rd.kind.isMany = true →
      Fits X ⟨u, n, none, none⟩

/-- Value of an attribute after a statement about it; `den` gives the object of an identifier. A
reference without opposite end keeps the object it already has. -/
def Stmt.apply (den : Str → Option Addr) (v : Val) (st : Stmt) : Val :=
  match st.res with
  | none =>
    match litOf v with
    | none => v
    | some l => match convert l.ty st.text with
      | some (some w) => w.toVal
      | _ => v
  | some r =>
    match st.target with
    | some u => match den u with
      | some b => if v = .none then .obj b else v
      | none => v
    | none => match Str.rsplit1 '.' r with
      | some w => .str w
      | none => v

/-- Statements about one attribute of one object, in order. -/
def aboutId (u n : Str) (ss : List Stmt) : List Stmt := ss.filter fun st => st.subj = u ∧ st.attr = n

/-- The declared association end `n` of the class of `u`. -/
def Ctx.endOf (X : Ctx) (u n : Str) : Option (Kind × Str) :=
  (X.cls u).bind fun c => (c.findRef n).bind fun rd => if regular rd.kind then some (rd.kind, rd.far) else none

/-- The reference of `u` a name stands for. -/
def Ctx.real (X : Ctx) (u n : Str) : Str :=
  match X.cls u with
  | some c => c.real n
  | none => n

/-- A statement says that `u'` is a partner of `u.n`. -/
def Ctx.Gives (X : Ctx) (st : Stmt) (u n u' : Str) : Prop :=
  st.subj = u ∧ X.real u st.attr = n ∧ st.target = some u' ∧ (X.endOf u n).isSome ∧ (X.cls u').isSome

/-- Some statement says so, from one end or from the other. -/
def Ctx.Said (X : Ctx) (ss : List Stmt) (u n u' : Str) : Prop :=
  (∃ st ∈ ss, X.Gives st u n u') ∨ ∃ st ∈ ss, ∃ k i, X.endOf u' i = some (k, n) ∧ X.Gives st u' i u

/-- `u'` is a partner of `u.n` before the call: both are in start_dict and not redefined by the document. -/
def Voc.before (v : Voc) (t : Elem) (h : Heap) (sd : Dict) (u n u' : Str) : Prop :=
  v.classOf t u = none ∧ v.classOf t u' = none ∧
    ∃ a b, sd.lookup u = some a ∧ sd.lookup u' = some b ∧ Props.Linked (view h) a n b

/-- `u'` is the only partner `u.n` has before the call or is given by statements from either end. -/
structure Voc.Only (v : Voc) (t : Elem) (h : Heap) (sd : Dict) (ss : List Stmt) (u n u' : Str) : Prop where
  said : ∀ u'', (v.ctx t h sd).Said ss u n u'' → u'' = u'
  old : v.classOf t u = none → ∀ a b, sd.lookup u = some a → Props.Linked (view h) a n b →
    v.classOf t u' = none ∧ sd.lookup u' = some b

/-- The ends of the link `u.n – u'` that are to-one references are not given any other partner. -/
def Voc.Unrivalled (v : Voc) (t : Elem) (h : Heap) (sd : Dict) (ss : List Stmt) (u n u' : Str) : Prop :=
  ∀ k i, (v.ctx t h sd).endOf u n = some (k, i) →
    (k.isMany = false → v.Only t h sd ss u n u') ∧ (k.opp.isMany = false → v.Only t h sd ss u' i u)

/-- A statement about the to-one reference `u.n` has no effect: the reference has a partner – for a
forwarding one, a partner of the class it is restricted to. -/
def Ctx.keeps (X : Ctx) (cls : Addr → Option Cls) (u n : Str) (o : Option Addr) : Bool :=
  match (X.cls u).bind fun c => c.findRef n with
  | some rd => if rd.kind = .alias then o.any fun b => decide ((cls b).map Cls.name = some rd.aliasCls) else o.isSome
  | none => o.isSome

/-- The to-one reference `u.n`, whose opposite is the collection `i`, after a statement: one about
`u.n` sets it unless it has a partner already, one that adds `u` to a collection `i` replaces it. -/
def Ctx.toOne (X : Ctx) (den : Str → Option Addr) (cls : Addr → Option Cls) (u n i : Str) (o : Option Addr)
    (st : Stmt) : Option Addr :=
  match st.target with
  | none => o
  | some w =>
    if st.subj = u ∧ X.real u st.attr = n then
      match den w with
      | none => o
      | some b => if X.keeps cls u st.attr o then o else some b
    else if w = u ∧ X.real st.subj st.attr = i ∧ X.endOf st.subj i = some (.many2one, n) then
      match den st.subj with
      | none => o
      | some y => some y
    else o

/-- The many-to-many collection `u.n`, with the opposite `i`, after a statement: one about `u.n` adds an
entry in any case, one from the other end unless there is one. -/
def Ctx.toMany (X : Ctx) (den : Str → Option Addr) (u n i : Str) (l : List Addr) (st : Stmt) : List Addr :=
  match st.target with
  | none => l
  | some w =>
    if st.subj = u ∧ X.real u st.attr = n then
      match den w with
      | none => l
      | some b => l ++ [b]
    else if w = u ∧ X.real st.subj st.attr = i ∧ X.endOf st.subj i = some (.many2many, n) then
      match den st.subj with
      | none => l
      | some y => if y ∈ l then l else l ++ [y]
    else l

/-- The collection `u.n`, whose opposite is the to-one reference `i`, after a statement: one that sets a
reference `i` moves its object to the end of the collection it names, one about a collection moves the
object it names to the end of that. `cur` are the references `i` before the statement. -/
def Ctx.moved (X : Ctx) (den : Str → Option Addr) (cls : Addr → Option Cls) (u n i : Str) (cur : Str → Option Addr)
    (l : List Addr) (st : Stmt) : List Addr :=
  match st.target.bind fun w => (den st.subj).bind fun y => (den w).map fun b => (w, y, b) with
  | none => l
  | some (w, y, b) =>
    if X.real st.subj st.attr = i ∧ X.endOf st.subj i = some (.one2many, n) then
      if X.keeps cls st.subj st.attr (cur st.subj) then l
      else l.filter (· ≠ y) ++ if w = u then [y] else []
    else if X.real st.subj st.attr = n ∧ X.endOf st.subj n = some (.many2one, i) then
      l.filter (· ≠ b) ++ if st.subj = u then [b] else []
    else l

/-- The collection after a list of statements. -/
def Ctx.members (X : Ctx) (den : Str → Option Addr) (cls : Addr → Option Cls) (u n i : Str) :
    (Str → Option Addr) → List Addr → List Stmt → List Addr
  | _, l, [] => l
  | cur, l, st :: ss => X.members den cls u n i (fun w => X.toOne den cls w i n (cur w) st)
      (X.moved den cls u n i cur l st) ss

/-- The one-to-one references. -/
def Ctx.pairs (X : Ctx) (den : Str → Option Addr) (V : View) (u n : Str) : Option Addr :=
  match X.endOf u n with
  | some (.one2one, _) => (den u).bind fun a => V.one a n
  | _ => none

/-- The one-to-one references after a statement: a statement about one that has no partner makes the
object it names, which leaves the partner it has, the partner. -/
def Ctx.pair (X : Ctx) (den : Str → Option Addr) (cur : Str → Str → Option Addr) (st : Stmt) (u n : Str) : Option Addr :=
  match X.endOf st.subj st.attr with
  | some (.one2one, i) =>
    match st.target.bind fun w => (den st.subj).bind fun y => (den w).map fun b => (w, y, b) with
    | none => cur u n
    | some (w, y, b) =>
      if (cur st.subj st.attr).isSome then cur u n
      else if u = st.subj ∧ n = st.attr then some b
      else if u = w ∧ n = i then some y
      else if n = st.attr ∧ X.endOf u n = some (.one2one, i) ∧ cur u n = some b then none
      else cur u n
  | _ => cur u n

/-- The state `s` after reading a document that makes the statements `ss`. -/
structure Reads (v : Voc) (t : Elem) (h : Heap) (sd : Dict) (ss : List Stmt) (s : RState) : Prop where
  /-- both ends of every association agree (and the other invariants of object graphs) -/
  live : Live s.heap
  next : h.next ≤ s.heap.next
  /-- the identifiers of the result and the classes of their objects -/
  keys : ∀ u, s.d.lookup u = none ↔ (v.ctx t h sd).cls u = none
  cls : ∀ u a, s.d.lookup u = some a → s.heap.cls a = (v.ctx t h sd).cls u
  inj : ∀ u u' a, s.d.lookup u = some a → s.d.lookup u' = some a → u = u'
  /-- described objects are new, the others those of start_dict -/
  new : ∀ u c, v.classOf t u = some c → ∃ a, s.d.lookup u = some a ∧ h.next ≤ a ∧ a < s.heap.next
  old : ∀ u, v.classOf t u = none → s.d.lookup u = sd.lookup u
  /-- attributes and references without opposite end: the statements about them, in order -/
  value : ∀ u a c n w, s.d.lookup u = some a → (v.ctx t h sd).cls u = some c → (c.findRef n = none → Pub n) →
    (v.ctx t h sd).val u n = some w →
    Props.attr s.heap a n = some ((aboutId u n ss).foldl (Stmt.apply (fun u => s.d.lookup u)) w)
  /-- they are stored in the dictionary of the object -/
  cells : ∀ u c n w, (v.ctx t h sd).cls u = some c → (c.findRef n = none → Pub n) → (v.ctx t h sd).val u n = some w →
    ∃ fd, cellOf c n = some fd
  stored : ∀ u a c n fd, s.d.lookup u = some a → (v.ctx t h sd).cls u = some c → cellOf c n = some fd →
    s.heap.dict a fd = ((v.ctx t h sd).val u n).map fun w => (aboutId u n ss).foldl (Stmt.apply (fun u => s.d.lookup u)) w
  /-- no attributes are added -/
  absent : ∀ u a c n, s.d.lookup u = some a → (v.ctx t h sd).cls u = some c → c.findRef n = none → Pub n →
    classLevel c n = false → (v.ctx t h sd).val u n = none → Props.attr s.heap a n = none
  /-- objects that are not in the result -/
  others : ∀ x c, h.cls x = some c → (∀ u, s.d.lookup u ≠ some x) → s.heap.cls x = some c ∧
    ∀ n fd, cellOf c n = some fd → Props.attr s.heap x n = Props.attr h x n
  /-- associations: only links before and those stated, from either end -/
  links : ∀ u a u' b n, s.d.lookup u = some a → s.d.lookup u' = some b → Props.Linked (view s.heap) a n b →
    v.before t h sd u n u' ∨ (v.ctx t h sd).Said ss u n u'
  /-- and all of these that do not compete for a to-one reference -/
  linked : ∀ u a u' b n, s.d.lookup u = some a → s.d.lookup u' = some b → v.Unrivalled t h sd ss u n u' →
    v.before t h sd u n u' ∨ (v.ctx t h sd).Said ss u n u' → Props.Linked (view s.heap) a n b
  /-- to-one references with a collection at the other end: the statements from either end, in order -/
  toOne : ∀ u a n i, s.d.lookup u = some a → (v.ctx t h sd).endOf u n = some (.one2many, i) →
    (view s.heap).one a n = ss.foldl ((v.ctx t h sd).toOne (fun u => s.d.lookup u) s.heap.cls u n i)
      ((view h).one a n)
  /-- many-to-many collections likewise -/
  toMany : ∀ u a n i, s.d.lookup u = some a → (v.ctx t h sd).endOf u n = some (.many2many, i) →
    (view s.heap).many a n = ss.foldl ((v.ctx t h sd).toMany (fun u => s.d.lookup u) u n i)
      ((view h).many a n)
  /-- and other collections -/
  members : ∀ u a n i, s.d.lookup u = some a → (v.ctx t h sd).endOf u n = some (.many2one, i) →
    (view s.heap).many a n = (v.ctx t h sd).members (fun u => s.d.lookup u) s.heap.cls u n i
      (fun w => (s.d.lookup w).bind fun b => (view h).one b i) ((view h).many a n) ss
  /-- and one-to-one references -/
  pairs : ∀ u a n i, s.d.lookup u = some a → (v.ctx t h sd).endOf u n = some (.one2one, i) →
    (view s.heap).one a n = ss.foldl ((v.ctx t h sd).pair (fun u => s.d.lookup u))
      ((v.ctx t h sd).pairs (fun u => s.d.lookup u) (view h)) u n
  /-- no links with objects that are not in the result are made -/
  outside : ∀ a b n, (∀ u, s.d.lookup u ≠ some a) ∨ (∀ u, s.d.lookup u ≠ some b) →
    Props.Linked (view s.heap) a n b → Props.Linked (view h) a n b
  /-- links are kept unless one end is a to-one reference that the document gives a partner -/
  kept : ∀ a b n k i, Props.Linked (view h) a n b → ends h a n = some (k, i) →
    (k.isMany = false → ∀ u u', s.d.lookup u = some a → ¬ (v.ctx t h sd).Said ss u n u') →
    (k.opp.isMany = false → ∀ u u', s.d.lookup u' = some b → ¬ (v.ctx t h sd).Said ss u' i u) →
    Props.Linked (view s.heap) a n b

/-- What a document without descriptions inside other ones means. -/
abbrev Means (v : Voc) (t : Elem) (h : Heap) (sd : Dict) (s : RState) : Prop := Reads v t h sd (v.says t) s

/-! ### Descriptions inside other descriptions -/

mutual
/-- The statements heard in an element while those of `cur` are being collected (if any), and whose are being
collected after it. An element with a known identifier opens a collection if there is none; inside one, any
element with an identifier closes it. -/
def Voc.hear (v : Voc) (known : Str → Bool) : Option Str → Elem → List Stmt × Option Str
  | none, .mk ds t as x ks =>
    match v.subj? (.mk ds t as x ks) with
    | some u => ((v.hearAll known (if known u then some u else none) ks).1, none)
    | none => ((v.hearAll known none ks).1, none)
  | some u, .mk ds t as x ks =>
    match v.hearAll known (some u) ks with
    | (l, none) => (l, none)
    | (l, some u') =>
      match v.subj? (.mk ds t as x ks) with
      | some _ => (l, none)
      | none => (l ++ (v.stmt? u' (.mk ds t as x ks)).toList, some u')
def Voc.hearAll (v : Voc) (known : Str → Bool) : Option Str → List Elem → List Stmt × Option Str
  | cur, [] => ([], cur)
  | cur, k :: ks =>
    let r := v.hear known cur k
    let r' := v.hearAll known r.2 ks
    (r.1 ++ r'.1, r'.2)
end

/-- The statements of a document, whatever the nesting of its descriptions. -/
def Voc.heard (v : Voc) (t : Elem) (h : Heap) (sd : Dict) : List Stmt :=
  (v.hearAll (fun u => ((v.ctx t h sd).cls u).isSome) none t.kids).1

end Spec
end Verif
