import Verif.Cim.Write
import Verif.Xml.Sim
import Verif.Spec.Read
import Verif.Props.Frame
import Verif.Cim.Solo
/-
The document written by `cimwrite`: what the calls of the XML writer amount to, as tokens and as an
element tree.
-/
namespace Verif
namespace Spec
open Xml Cim Props

/-- `str(v)` of values with a definite text. -/
def strOf : Val → Option Str
  | .none => some c!"None"
  | .bool true => some c!"True"
  | .bool false => some c!"False"
  | .int i => some (Str.intRepr i)
  | .flt b => some (Flt.repr b)
  | .str s => some s
  | _ => none

/-- A property element: declaring class, attribute, text and resource. -/
structure PItem where
  cls : Str
  attr : Str
  text : Option Str
  res : Option Str
  deriving DecidableEq

/-- Attributes that differ from the default. -/
def attrItem (h : Heap) (a : Addr) (d : ClassDef) (p : Str × Lit) : List PItem :=
  match attr h a p.1 with
  | some v => if valEq v p.2 then [] else [⟨d.name, p.1, strOf v, none⟩]
  | none => []

/-- Enumeration values: URI of the enumeration and value. -/
def enumItem (h : Heap) (a : Addr) (d : ClassDef) (p : Str × Lit) : List PItem :=
  match (attr h a p.1).bind strOf with
  | some t => [⟨d.name, p.1, none, some (nsCIM ++ (d.enums.lookup p.1).getD [] ++ c!"." ++ t)⟩]
  | none => []

/-- Identifier of an object. -/
def uuidOf (h : Heap) (a : Addr) : Str :=
  match attr h a c!"UUID" with
  | some (.str u) => u
  | _ => []

/-- References that are not None. -/
def refItem (h : Heap) (a : Addr) (d : ClassDef) (r : Str) : List PItem :=
  match attr h a r with
  | some (.obj b) => [⟨d.name, r, none, some ('#' :: uuidOf h b)⟩]
  | _ => []

/-- The property elements of an object. -/
def items (h : Heap) (a : Addr) (c : Cls) : List PItem :=
  (Cls.written c).flatMap (fun d => (ClassDef.plainAttrs d).flatMap (attrItem h a d)) ++
  ((Cls.written c).flatMap (fun d => (ClassDef.enumAttrs d).flatMap (enumItem h a d)) ++
   (Cls.written c).flatMap (fun d => (ClassDef.oneRefs d).flatMap (refItem h a d)))

/-- Characters of XML names. -/
def NameOk (n : Str) : Prop := ∀ c ∈ n, isNameChar c = true

/-- An object that can be written: its names are XML names, its identifier, its attribute values and those
of the objects it refers to have texts that can appear in an XML document. -/
structure ObjOk (h : Heap) (a : Addr) (c : Cls) : Prop where
  cls : h.cls a = some c
  name : NameOk (Cls.name c)
  uuid : ∃ u, attr h a c!"UUID" = some (.str u) ∧ AttrOk u
  names : ∀ d ∈ Cls.written c, NameOk d.name
  attrNames : ∀ d ∈ Cls.written c, ∀ p ∈ d.attrs, NameOk p.1
  refNames : ∀ d ∈ Cls.written c, ∀ r ∈ d.refs, NameOk r.name
  enumNames : ∀ d ∈ Cls.written c, ∀ p ∈ d.enums, AttrOk p.2
  attrs : ∀ d ∈ Cls.written c, ∀ p ∈ ClassDef.plainAttrs d, ∃ v, attr h a p.1 = some v ∧ v ≠ .opaque ∧
    (valEq v p.2 = false → ∃ t, strOf v = some t ∧ TextOk t)
  enums : ∀ d ∈ Cls.written c, ∀ p ∈ ClassDef.enumAttrs d, ∃ v t, attr h a p.1 = some v ∧ strOf v = some t ∧ AttrOk t
  refs : ∀ d ∈ Cls.written c, ∀ r ∈ ClassDef.oneRefs d, attr h a r = some .none ∨
    ∃ b u, attr h a r = some (.obj b) ∧ attr h b c!"UUID" = some (.str u) ∧ AttrOk u

/-- The namespaces of a written document. -/
def vW (m : PkgMap) : Voc := ⟨nsURI15, nsRDF, some m⟩

/-- `{uri}name` in the CIM and RDF namespaces. -/
def cimName (n : Str) : Str := '{' :: nsCIM ++ '}' :: n
def rdfName (n : Str) : Str := '{' :: nsRDF ++ '}' :: n

def PItem.name (p : PItem) : Str := p.cls ++ c!"." ++ p.attr

def PItem.elem (p : PItem) : Elem :=
  .mk [] (cimName p.name) (match p.res with | some r => [(rdfName c!"resource", r)] | none => [])
    (p.text.bind textOf) []

def objElem (h : Heap) (a : Addr) (c : Cls) : Elem :=
  .mk [] (cimName (Cls.name c)) [(rdfName c!"ID", uuidOf h a)] none ((items h a c).map PItem.elem)

/-- The tree of a written document. -/
def docElem (h : Heap) (d : Dict) : Elem :=
  .mk [(c!"cim", nsCIM), (c!"rdf", nsRDF)] (rdfName c!"RDF") [] none
    (d.map fun p => objElem h p.2 ((h.cls p.2).getD []))

end Spec

namespace Cim
open Py Hp Xml Spec Props

/-! ### Calls -/

theorem onHeap_get {a : Addr} {n : Str} {v : Val} {h : Heap} {w : W} (e : attr h a n = some v) :
    onHeap (getAttr a n) ⟨h, w⟩ = .ok v ⟨h, w⟩ := by
  unfold attr at e
  have hh := getAttr_state a n h
  unfold onHeap
  cases hr : getAttr a n h with
  | ok x h1 => rw [hr] at e hh; cases e; simp only [Res.state] at hh; subst hh; rfl
  | err x h1 => rw [hr] at e; cases e

theorem pyStr_eq {v : Val} {t : Str} (e : strOf v = some t) (s : WState) : pyStr v s = .ok t s := by
  unfold strOf at e
  split at e <;> first | (cases e; rfl) | cases e

theorem onWriter_ok {α : Type} {x : WPy α} {a : α} {h : Heap} {w w' : W} (e : x w = .ok a w') :
    onWriter x ⟨h, w⟩ = .ok a ⟨h, w'⟩ := by simp [onWriter, e]

end Cim

namespace Spec
open Xml Cim

/-- The attributes of a property element, as written. -/
def PItem.qattrs (p : PItem) : List (Str × Str) :=
  match p.res with | some r => [(c!"rdf:resource", r)] | none => []

/-- The tokens of a property element. -/
def PItem.toks (p : PItem) : List Tok :=
  .start (c!"cim:" ++ p.name) p.qattrs :: (p.text.getD []).map Tok.char ++ [.fin (c!"cim:" ++ p.name)]

end Spec

namespace Cim
open Py Hp Xml Spec Props

/-- A call leaves the heap alone and writes the given elements. -/
def Writes (x : CPy Unit) (h : Heap) (L : List PItem) : Prop :=
  ∀ d w, Rel d w → d.wait = [] → ∃ w', x ⟨h, w⟩ = .ok ⟨⟩ ⟨h, w'⟩ ∧ Rel (d.put (L.flatMap PItem.toks)) w'

theorem put_nil {d : Doc} (e : d.wait = []) : d.put [] = d := by
  cases d; simp only at e; subst e; simp [Doc.put]

theorem Writes.pure (h : Heap) : Writes (Py.pure ⟨⟩) h [] := fun d w r e =>
  ⟨w, rfl, by rw [List.flatMap_nil, put_nil e]; exact r⟩

theorem Writes.bind {x y : CPy Unit} {h : Heap} {L M : List PItem} (hx : Writes x h L) (hy : Writes y h M) :
    Writes (Py.bind x fun _ => y) h (L ++ M) := fun d w r e => by
  obtain ⟨w1, e1, r1⟩ := hx d w r e
  obtain ⟨w2, e2, r2⟩ := hy _ w1 r1 rfl
  refine ⟨w2, (Xml.pbind_ok e1).trans e2, ?_⟩
  rw [List.flatMap_append, ← put_put_nil]
  exact r2

theorem Writes.forEach {ι : Type} {f : ι → CPy Unit} {h : Heap} {g : ι → List PItem} :
    ∀ {l : List ι}, (∀ i ∈ l, Writes (f i) h (g i)) → Writes (Py.forEach f l) h (l.flatMap g)
  | [], _ => Writes.pure h
  | i :: l, hf => by
    rw [List.flatMap_cons]
    exact Writes.bind (hf i (by simp)) (Writes.forEach fun j hj => hf j (by simp [hj]))

theorem isName_cim {n : Str} (h : NameOk n) : isName (c!"cim:" ++ n) = true := by
  show (isNameStart 'c' && (c!"im:" ++ n).all isNameChar) = true
  rw [Bool.and_eq_true, List.all_append, Bool.and_eq_true]
  exact ⟨by decide, by decide, List.all_eq_true.mpr h⟩

theorem PItem.nameOk {p : PItem} (h1 : NameOk p.cls) (h2 : NameOk p.attr) : NameOk p.name := by
  intro c hc
  simp only [PItem.name, List.mem_append] at hc
  rcases hc with (e | e) | e
  · exact h1 c e
  · revert c; decide
  · exact h2 c e

/-- One property element. -/
theorem Writes.item (h : Heap) {p : PItem} (h1 : NameOk p.cls) (h2 : NameOk p.attr) (h3 : TextOk (p.text.getD []))
    (h4 : ∀ r, p.res = some r → AttrOk r) :
    Writes (onWriter (element (c!"cim:" ++ p.name) p.text p.qattrs [])) h [p] := fun d w r e => by
  have ha : AttrsOk p.qattrs := by
    unfold PItem.qattrs
    cases hr : p.res with
    | none => exact ⟨nofun, nofun, .nil⟩
    | some x => exact ⟨by simp; decide, by simpa using h4 x hr, by simp⟩
  obtain ⟨w', e1, r1⟩ := r.element (isName_cim (PItem.nameOk h1 h2)) ha h3 []
  refine ⟨w', onWriter_ok e1, ?_⟩
  have hs : sortAttrs p.qattrs = p.qattrs := by unfold PItem.qattrs; cases p.res <;> rfl
  rw [hs] at r1
  simpa [PItem.toks] using r1

theorem propTag_eq (d : ClassDef) (n : Str) (x y) : propTag d n = c!"cim:" ++ PItem.name ⟨d.name, n, x, y⟩ := by
  simp [propTag, PItem.name]

theorem AttrOk.append {s t : Str} (hs : AttrOk s) (ht : AttrOk t) : AttrOk (s ++ t) := fun c hc =>
  (List.mem_append.mp hc).elim (hs c) (ht c)

section
variable {h : Heap} {a : Addr} {c : Cls}

theorem mem_plainAttrs {d : ClassDef} {p} (hp : p ∈ ClassDef.plainAttrs d) : p ∈ d.attrs :=
  (List.mem_filter.mp hp).1

theorem mem_enumAttrs {d : ClassDef} {p} (hp : p ∈ ClassDef.enumAttrs d) : p ∈ d.attrs :=
  (List.mem_filter.mp hp).1

theorem mem_oneRefs {d : ClassDef} {r : Str} (hr : r ∈ ClassDef.oneRefs d) :
    ∃ rd ∈ d.refs, rd.name = r ∧ rd.kind.isMany = false := by
  obtain ⟨rd, h1, h2⟩ := List.mem_map.mp hr
  obtain ⟨h3, h4⟩ := List.mem_filter.mp h1
  exact ⟨rd, h3, h2, by simpa using h4⟩

theorem writes_attr (ok : ObjOk h a c) {d} (hd : d ∈ Cls.written c) {p} (hp : p ∈ ClassDef.plainAttrs d) :
    Writes (writeAttribute a d p) h (attrItem h a d p) := by
  intro D w r e
  obtain ⟨v, hv, ho, ht⟩ := ok.attrs d hd p hp
  unfold writeAttribute
  simp only [Xml.pbind_ok (onHeap_get hv), if_neg ho]
  unfold attrItem
  simp only [hv]
  cases hq : valEq v p.2 with
  | true => exact Writes.pure h D w r e
  | false =>
    obtain ⟨t, h1, h2⟩ := ht hq
    simp only [Bool.false_eq_true, if_false]
    rw [Xml.pbind_ok (pyStr_eq h1 _), h1, propTag_eq d p.1 (some t) none]
    exact Writes.item (p := ⟨d.name, p.1, some t, none⟩) h (ok.names d hd)
      (ok.attrNames d hd p (mem_plainAttrs hp)) h2 nofun D w r e

theorem mem_of_lookup {l : List (Str × Str)} {k v : Str} (e : l.lookup k = some v) : ∃ k', (k', v) ∈ l := by
  induction l with
  | nil => cases e
  | cons p ps ih =>
    rw [List.lookup_cons] at e
    split at e
    · cases e; exact ⟨p.1, by simp⟩
    · obtain ⟨k', hk⟩ := ih e; exact ⟨k', by simp [hk]⟩

theorem attrOk_nsCIM : AttrOk nsCIM := by decide

theorem writes_enum (ok : ObjOk h a c) {d} (hd : d ∈ Cls.written c) {p} (hp : p ∈ ClassDef.enumAttrs d) :
    Writes (writeEnum a d p) h (enumItem h a d p) := by
  intro D w r e
  obtain ⟨v, t, hv, ht, h2⟩ := ok.enums d hd p hp
  unfold writeEnum
  simp only [Xml.pbind_ok (onHeap_get hv), Xml.pbind_ok (pyStr_eq ht _)]
  have he : (attr h a p.1).bind strOf = some t := by rw [hv]; exact ht
  unfold enumItem
  simp only [he]
  rw [propTag_eq d p.1 none (some (nsCIM ++ (d.enums.lookup p.1).getD [] ++ c!"." ++ t))]
  refine Writes.item (p := ⟨d.name, p.1, none, some _⟩) h (ok.names d hd)
      (ok.attrNames d hd p (mem_enumAttrs hp)) textOk_nil ?_ D w r e
  intro x hx
  cases hx
  refine AttrOk.append (AttrOk.append (AttrOk.append attrOk_nsCIM ?_) (by decide)) h2
  cases hl : d.enums.lookup p.1 with
  | none => exact nofun
  | some y =>
    obtain ⟨k, hk⟩ := mem_of_lookup hl
    exact ok.enumNames d hd _ hk

theorem writes_ref (ok : ObjOk h a c) {d} (hd : d ∈ Cls.written c) {r} (hr : r ∈ ClassDef.oneRefs d) :
    Writes (writeRef a d r) h (refItem h a d r) := by
  intro D w R e
  unfold writeRef refItem
  rcases ok.refs d hd r hr with hv | ⟨b, u, hv, hu, h2⟩
  · simp only [Xml.pbind_ok (onHeap_get hv), hv, if_true]
    exact Writes.pure h D w R e
  · simp only [Xml.pbind_ok (onHeap_get hv), hv]
    rw [if_neg (by simp)]
    have h1 : onHeap (getAttrV (.obj b) c!"UUID") ⟨h, w⟩ = .ok (.str u) ⟨h, w⟩ := onHeap_get hu
    have hb : uuidOf h b = u := by simp [uuidOf, hu]
    obtain ⟨rd, hrd, rfl, -⟩ := mem_oneRefs hr
    rw [Xml.pbind_ok h1, Xml.pbind_ok (pyStr_eq (v := .str u) rfl _), hb,
      propTag_eq d rd.name none (some ('#' :: u))]
    refine Writes.item (p := ⟨d.name, rd.name, none, some ('#' :: u)⟩) h (ok.names d hd)
      (ok.refNames d hd rd hrd) textOk_nil ?_ D w R e
    intro x hx
    cases hx
    exact AttrOk.append (s := ['#']) (by decide) h2

/-- The tokens of an object. -/
def objToks (h : Heap) (a : Addr) (c : Cls) : List Tok :=
  .start (c!"cim:" ++ Cls.name c) [(c!"rdf:ID", uuidOf h a)] ::
    ((items h a c).flatMap PItem.toks ++ [.fin (c!"cim:" ++ Cls.name c)])

theorem write_object (ok : ObjOk h a c) {D : Doc} {w : W} (r : Rel D w) :
    ∃ w', writeObject a ⟨h, w⟩ = .ok ⟨⟩ ⟨h, w'⟩ ∧ Rel (D.put (objToks h a c)) w' := by
  obtain ⟨u, hu, hok⟩ := ok.uuid
  have hb : uuidOf h a = u := by simp [uuidOf, hu]
  unfold writeObject
  simp only [ok.cls, Xml.pbind_ok (onHeap_get hu)]
  obtain ⟨w1, e1, r1⟩ := r.start (isName_cim ok.name) (as := [(c!"rdf:ID", u)])
    ⟨by simp; decide, by simpa using hok, by simp⟩ []
  rw [Xml.pbind_ok (onWriter_ok e1)]
  have k1 := Writes.forEach (h := h) (l := Cls.written c) fun d hd => Writes.forEach fun p hp => writes_attr ok hd (p := p) hp
  have k2 := Writes.forEach (h := h) (l := Cls.written c) fun d hd => Writes.forEach fun p hp => writes_enum ok hd (p := p) hp
  have k3 := Writes.forEach (h := h) (l := Cls.written c) fun d hd => Writes.forEach fun p hp => writes_ref ok hd (r := p) hp
  obtain ⟨w2, e2, r2⟩ := k1 _ w1 r1 rfl
  rw [Xml.pbind_ok e2]
  obtain ⟨w3, e3, r3⟩ := k2 _ w2 r2 rfl
  rw [Xml.pbind_ok e3]
  obtain ⟨w4, e4, r4⟩ := k3 _ w3 r3 rfl
  rw [Xml.pbind_ok e4]
  obtain ⟨w5, e5, r5⟩ := r4.endTail (t := c!"cim:" ++ Cls.name c) (st := D.stk) rfl
  refine ⟨w5, onWriter_ok (by rw [endTag_none]; exact e5), ?_⟩
  refine cast (congrArg (Rel · w5) ?_) r5
  simp [Doc.push, Doc.put, objToks, items, hb, sortAttrs, insertAttr]

end

/-- The `xml` declaration. -/
theorem rel_decl {e : Codec} (he : e.Total) (hn : ∀ c ∈ e.name, isChar c = true ∧ c ≠ '?' ∧ c ≠ '\r') :
    ∃ s w, declaration (W.new e) = .ok ⟨⟩ w ∧ (∃ t, s = c!"xml version='1.0'" ++ t) ∧
      Rel ⟨[], [.pi s, .char '\n'], []⟩ w := by
  have fin : ∀ s, (∀ c ∈ s, isChar c = true ∧ c ≠ '?' ∧ c ≠ '\r') →
      Rel ⟨[], [.pi s, .char '\n'], []⟩ { W.new e with out := c!"<?" ++ s ++ c!"?>\n" } := by
    intro s hs
    refine ⟨he, rfl, rfl, textOk_nil, nofun, ?_, nofun, fun _ => ⟨0, ?_⟩⟩
    · simp only [List.mem_append, not_or]
      exact ⟨⟨by decide, fun h => (hs _ h).2.2 rfl⟩, by decide⟩
    · have s1 : run (.text 0) c!"<?" = ([], some (.pi [])) := by decide
      have s2 := run_pi (fun c hc => ⟨(hs c hc).1, (hs c hc).2.1⟩) (s := s) []
      have s3 : run (.pi s) c!"?>\n" = ([.pi s, .char '\n'], some (.text 0)) := by
        simp [run, step, isChar]
      have := run_trans (run_trans s1 s2) s3
      simpa using this
  unfold declaration
  rw [Xml.pbind_ok (x := Py.get) (a := _) (s' := _) rfl]
  by_cases hx : (W.new e).enc.name = c!"us-ascii" ∨ (W.new e).enc.name = c!"utf-8"
  · refine ⟨c!"xml version='1.0'", _, by rw [if_pos hx]; rfl, ⟨[], by simp⟩, ?_⟩
    exact fin c!"xml version='1.0'" (by decide)
  · refine ⟨c!"xml version='1.0'" ++ (c!" encoding='" ++ e.name ++ c!"'"), _,
      by rw [if_neg hx]; rfl, ⟨_, rfl⟩, ?_⟩
    have := fin (c!"xml version='1.0'" ++ (c!" encoding='" ++ e.name ++ c!"'")) (by
      intro c hc
      simp only [List.mem_append] at hc
      rcases hc with h | (h | h) | h
      · revert c; decide
      · revert c; decide
      · exact hn c h
      · revert c; decide)
    simpa [W.new] using this

/-- The objects of a dictionary one after the other. -/
theorem write_objects {h : Heap} : ∀ {l : Dict}, (∀ p ∈ l, ∃ c, ObjOk h p.2 c) → ∀ {D : Doc} {w : W},
    Rel D w → D.wait = [] → ∃ w', Py.forEach (fun p : Str × Addr => writeObject p.2) l ⟨h, w⟩ = .ok ⟨⟩ ⟨h, w'⟩ ∧
      Rel (D.put (l.flatMap fun p => objToks h p.2 ((h.cls p.2).getD []))) w'
  | [], _, D, w, r, e => ⟨w, rfl, by rw [List.flatMap_nil, put_nil e]; exact r⟩
  | p :: l, ok, D, w, r, e => by
    obtain ⟨c, hc⟩ := ok p (by simp)
    obtain ⟨w1, e1, r1⟩ := write_object hc r
    obtain ⟨w2, e2, r2⟩ := write_objects (l := l) (fun q hq => ok q (List.mem_cons_of_mem _ hq)) r1 rfl
    refine ⟨w2, (Xml.pbind_ok e1).trans e2, ?_⟩
    rw [put_put_nil] at r2
    rw [List.flatMap_cons, hc.cls]
    exact r2

/-- The attributes of the root element, as written. -/
def rootAttrs : List (Str × Str) := [(c!"xmlns:cim", nsCIM), (c!"xmlns:rdf", nsRDF)]

/-- The text of `cimwrite`: tokens. -/
theorem write_toks {e : Codec} (he : e.Total) (hn : ∀ c ∈ e.name, isChar c = true ∧ c ≠ '?' ∧ c ≠ '\r')
    {h : Heap} {d : Dict} (ok : ∀ p ∈ d, ∃ c, ObjOk h p.2 c) :
    ∃ s t w, cimwrite d ⟨h, W.new e⟩ = .ok ⟨⟩ ⟨h, w⟩ ∧ s = c!"xml version='1.0'" ++ t ∧
      lex w.out = (.pi s :: .char '\n' :: .start c!"rdf:RDF" rootAttrs ::
        ((d.flatMap fun p => objToks h p.2 ((h.cls p.2).getD [])) ++ [.fin c!"rdf:RDF"]), true) := by
  obtain ⟨s, w0, e0, ⟨t, hs⟩, r0⟩ := rel_decl he hn
  obtain ⟨w1, e1, r1⟩ := r0.start (t := c!"rdf:RDF") (as := [(c!"xmlns:rdf", nsRDF), (c!"xmlns:cim", nsCIM)])
    (by decide) ⟨by simp only [List.mem_cons, List.not_mem_nil, or_false, forall_eq_or_imp, forall_eq]; decide,
      by simp only [List.mem_cons, List.not_mem_nil, or_false, forall_eq_or_imp, forall_eq]; decide, by decide⟩ []
  obtain ⟨w2, e2, r2⟩ := write_objects ok r1 rfl
  obtain ⟨w3, e3, r3⟩ := r2.close 0
  refine ⟨s, t, w3, ?_, hs, ?_⟩
  · unfold cimwrite
    rw [Xml.pbind_ok (onWriter_ok e0), Xml.pbind_ok (onWriter_ok e1), Xml.pbind_ok e2]
    exact onWriter_ok e3
  · rw [r3.done rfl]
    have hr : sortAttrs [(c!"xmlns:rdf", nsRDF), (c!"xmlns:cim", nsCIM)] = rootAttrs := by decide
    rw [hr]
    simp [Doc.popTo, Doc.push, Doc.put]

/-! ### Trees -/

/-- The namespaces in scope below the root element. -/
def docScope : Scope := [(c!"rdf", nsRDF), (c!"cim", nsCIM)] ++ scope0

theorem openTag_cim (n : Str) : openTag docScope (c!"cim:" ++ n) [] = some ⟨[], cimName n, []⟩ := rfl

theorem openTag_attr (n k v : Str) : openTag docScope (c!"cim:" ++ n) [(c!"rdf:" ++ k, v)] =
    some ⟨[], cimName n, [(rdfName k, v)]⟩ := rfl

theorem trun_chars {f : Frame} {fs : List Frame} (hk : f.kid = false) : ∀ (s : Str),
    trun (.body f fs) (s.map Tok.char) = ([], some (.body { f with text := f.text ++ s } fs)) := by
  intro s
  induction s generalizing f with
  | nil => simp [trun]
  | cons c cs ih =>
    simp only [List.map_cons, trun, tstep, hk, Bool.false_eq_true, if_false]
    rw [ih rfl]
    simp

theorem trun_item (p : PItem) {f : Frame} (fs : List Frame) (hf : f.scope = docScope) :
    trun (.body f fs) p.toks = ((PItem.elem p).evs false, some (.body { f with kid := true } fs)) := by
  have ho : openTag f.scope (c!"cim:" ++ p.name) p.qattrs = some ⟨[], cimName p.name,
      (match p.res with | some r => [(rdfName c!"resource", r)] | none => [])⟩ := by
    rw [hf]; unfold PItem.qattrs
    cases p.res with
    | none => exact openTag_cim _
    | some r => exact openTag_attr _ c!"resource" r
  unfold PItem.toks
  rw [List.cons_append]
  simp only [trun, tstep, ho, Option.map_some]
  rw [trun_trans (trun_chars (by rfl) _) (us := _) (m'' := _) (by simp only [trun, tstep, if_true]; rfl)]
  simp only [PItem.elem, Elem.evs, Elem.evsAll, List.map_nil, List.nil_append, List.append_nil, List.cons_append]
  congr 3
  cases p.text <;> rfl

theorem trun_items {f : Frame} (fs : List Frame) (hf : f.scope = docScope) : ∀ (l : List PItem),
    ∃ k, trun (.body f fs) (l.flatMap PItem.toks) =
      (Elem.evsAll (l.map PItem.elem), some (.body { f with kid := k } fs)) := by
  intro l
  induction l generalizing f with
  | nil => exact ⟨f.kid, rfl⟩
  | cons p l ih =>
    obtain ⟨k, hk⟩ := ih (f := { f with kid := true }) hf
    exact ⟨k, by rw [List.flatMap_cons, trun_trans (trun_item p fs hf) hk]; rfl⟩

theorem trun_obj (h : Heap) (a : Addr) (c : Cls) {f : Frame} (fs : List Frame) (hf : f.scope = docScope) :
    trun (.body f fs) (objToks h a c) = ((objElem h a c).evs false, some (.body { f with kid := true } fs)) := by
  have ho : openTag f.scope (c!"cim:" ++ Cls.name c) [(c!"rdf:ID", uuidOf h a)] =
      some ⟨[], cimName (Cls.name c), [(rdfName c!"ID", uuidOf h a)]⟩ := by
    rw [hf]; exact openTag_attr _ c!"ID" _
  unfold objToks
  simp only [trun, tstep, ho, Option.map_some]
  obtain ⟨k, hk⟩ := trun_items (f := ⟨c!"cim:" ++ Cls.name c, cimName (Cls.name c), [(rdfName c!"ID", uuidOf h a)],
    f.scope, [], false⟩) ({ f with kid := true } :: fs) hf (items h a c)
  rw [show ([] : Scope).reverse ++ f.scope = f.scope from rfl,
    trun_trans hk (us := _) (m'' := _) (by simp only [trun, tstep, if_true]; rfl)]
  simp [objElem, Elem.evs, textOf]

theorem trun_objs (h : Heap) {f : Frame} (fs : List Frame) (hf : f.scope = docScope) : ∀ (l : Dict),
    ∃ k, trun (.body f fs) (l.flatMap fun p => objToks h p.2 ((h.cls p.2).getD [])) =
      (Elem.evsAll (l.map fun p => objElem h p.2 ((h.cls p.2).getD [])), some (.body { f with kid := k } fs)) := by
  intro l
  induction l generalizing f with
  | nil => exact ⟨f.kid, rfl⟩
  | cons p l ih =>
    obtain ⟨k, hk⟩ := ih (f := { f with kid := true }) hf
    exact ⟨k, by rw [List.flatMap_cons, trun_trans (trun_obj h p.2 _ fs hf) hk]; rfl⟩

/-- The text of `cimwrite` is the described document. -/
theorem write_doc {e : Codec} (he : e.Total) (hn : ∀ c ∈ e.name, isChar c = true ∧ c ≠ '?' ∧ c ≠ '\r')
    {h : Heap} {d : Dict} (ok : ∀ p ∈ d, ∃ c, ObjOk h p.2 c) :
    ∃ w, cimwrite d ⟨h, W.new e⟩ = .ok ⟨⟩ ⟨h, w⟩ ∧ IsDoc w.out (docElem h d) := by
  obtain ⟨s, t, w, e1, hs, hl⟩ := write_toks he hn ok
  refine ⟨w, e1, ?_⟩
  unfold IsDoc parse
  rw [hl]
  have hx : isXmlPi s = true := by rw [hs]; rfl
  have hp : c!"xml".isPrefixOf s = true := by rw [hs]; rfl
  have ho : openTag scope0 c!"rdf:RDF" rootAttrs = some ⟨[(c!"cim", nsCIM), (c!"rdf", nsRDF)], rdfName c!"RDF", []⟩ := by
    decide
  obtain ⟨k, hk⟩ := trun_objs h (f := ⟨c!"rdf:RDF", rdfName c!"RDF", [], docScope, [], false⟩) [] rfl d
  have h1 : trun (.pre true) (.pi s :: .char '\n' :: .start c!"rdf:RDF" rootAttrs ::
        ((d.flatMap fun p => objToks h p.2 ((h.cls p.2).getD [])) ++ [.fin c!"rdf:RDF"])) =
      ((docElem h d).evs true, some .post) := by
    have hw : isWs '\n' = true := by decide
    simp only [trun, tstep, hx, hp, hw, ho, Option.map_some, if_true, and_self]
    have hsc : [(c!"cim", nsCIM), (c!"rdf", nsRDF)].reverse ++ scope0 = docScope := rfl
    rw [hsc, trun_trans hk (us := _) (m'' := _) (by simp only [trun, tstep, if_true]; rfl)]
    simp [docElem, Elem.evs, textOf]
  simp only [h1]
  rfl

end Cim
end Verif
