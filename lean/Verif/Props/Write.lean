import Verif.Cim.WriteDoc
import Verif.Gen.Check18
import Verif.Props.Tables
import Verif.Spec.Equal
/-
Properties of cimwrite: C46, C47, C48.
-/
namespace Verif
namespace Props
open Cim Py Hp Spec Xml Gen

/-! ### Objects that can be written -/

/-- Values of an object `a` of class `c` that have a place in an XML document. `c.dropLast` are the classes
of the MRO but `Element`. The identifier is a string. Attributes hold numbers, booleans, None or strings
without control characters and carriage returns; enumeration values contain no line ends or tabs either.
References are None or lead to objects with an identifier. -/
structure Textable (h : Heap) (a : Addr) (c : Cls) : Prop where
  uuid : ∃ u, attr h a c!"UUID" = some (.str u) ∧ AttrOk u
  attrs : ∀ d ∈ c.dropLast, ∀ p ∈ d.attrs, ∃ v t, attr h a p.1 = some v ∧ strOf v = some t ∧ TextOk t ∧
    (p.1 ∈ d.enums.map (·.1) → AttrOk t)
  refs : ∀ d ∈ c.dropLast, ∀ r ∈ d.refs, r.kind.isMany = false → attr h a r.name = some .none ∨
    ∃ b u, attr h a r.name = some (.obj b) ∧ attr h b c!"UUID" = some (.str u) ∧ AttrOk u

/-- An object of a class derived from `Element`, of one of the packages, with such values. -/
def Writable (h : Heap) (a : Addr) : Prop :=
  ∃ p ∈ packages, ∃ c ∈ p.classes, h.cls a = some (toCls c) ∧ c!"Element" ∈ (toCls c).map (·.name) ∧
    Textable h a (toCls c)

theorem nameChar_of {c : Char} (h : nameCh c.toNat = true) : isNameChar c = true := by
  unfold nameCh letter at h
  unfold isNameChar isNameStart
  by_cases hd : c = '-'
  · subst hd; decide
  · have : c.toNat ≠ 45 := fun hh => hd (by rw [← Char.ofNat_toNat c, hh])
    simp only [Bool.or_eq_true, Bool.and_eq_true, decide_eq_true_eq, beq_iff_eq] at h ⊢
    omega

theorem Legal.nameOk {n : Str} (h : Legal n) : NameOk n := fun c hc => nameChar_of (h.2 c hc)

theorem Legal.attrOk {n : Str} (h : Legal n) : AttrOk n := fun c hc => by
  have h := h.2 c hc
  unfold nameCh letter at h
  have h13 : c ≠ '\r' := by rintro rfl; revert h; decide
  have h9 : c ≠ '\t' := by rintro rfl; revert h; decide
  have h10 : c ≠ '\n' := by rintro rfl; revert h; decide
  refine ⟨?_, h13, h9, h10⟩
  unfold isChar
  simp only [Bool.or_eq_true, Bool.and_eq_true, decide_eq_true_eq, beq_iff_eq] at h ⊢
  omega

theorem Legal.noDot {n : Str} (h : Legal n) : '.' ∉ n := fun hc => by
  have := h.2 _ hc
  revert this; decide

theorem mem_written {c : Cls} {d : ClassDef} : d ∈ Cls.written c ↔ d ∈ c.dropLast := by
  have : Cls.written c = c.dropLast.reverse := by
    unfold Cls.written
    rw [List.drop_one, List.tail_reverse]
  rw [this, List.mem_reverse]

theorem mem_of_written {c : Cls} {d : ClassDef} (h : d ∈ Cls.written c) : d ∈ c :=
  List.dropLast_subset c (mem_written.1 h)

theorem plain_mem {d : ClassDef} {p} : p ∈ ClassDef.plainAttrs d ↔ p ∈ d.attrs ∧ p.1 ∉ d.enums.map (·.1) := by
  unfold ClassDef.plainAttrs
  rw [List.mem_filter]
  simp only [Bool.not_eq_true', List.any_eq_false, decide_eq_true_eq, List.mem_map, not_exists, not_and]

theorem enum_mem {d : ClassDef} {p} : p ∈ ClassDef.enumAttrs d ↔ p ∈ d.attrs ∧ p.1 ∈ d.enums.map (·.1) := by
  unfold ClassDef.enumAttrs
  rw [List.mem_filter]
  simp

theorem strOf_opaque {v : Val} {t : Str} (h : strOf v = some t) : v ≠ .opaque := by
  rintro rfl; cases h

theorem Textable.ok {h : Heap} {a : Addr} {c : Cls} (T : Textable h a c) (hc : h.cls a = some c) (hne : c ≠ [])
    (N : NamesOk c) : ObjOk h a c where
  cls := hc
  name := by
    cases c with
    | nil => exact absurd rfl hne
    | cons d ds => exact (N.names d (by simp)).nameOk
  uuid := T.uuid
  names d hd := (N.names d (mem_of_written hd)).nameOk
  attrNames d hd p hp := (N.attrs d (mem_of_written hd) p hp).nameOk
  refNames d hd r hr := (N.refs d (mem_of_written hd) r hr).nameOk
  enumNames d hd p hp := (N.enums d (mem_of_written hd) p hp).attrOk
  attrs d hd p hp := by
    obtain ⟨v, t, h1, h2, h3, -⟩ := T.attrs d (mem_written.1 hd) p (plain_mem.1 hp).1
    exact ⟨v, h1, strOf_opaque h2, fun _ => ⟨t, h2, h3⟩⟩
  enums d hd p hp := by
    obtain ⟨v, t, h1, h2, -, h3⟩ := T.attrs d (mem_written.1 hd) p (enum_mem.1 hp).1
    exact ⟨v, t, h1, h2, h3 (enum_mem.1 hp).2⟩
  refs d hd r hr := by
    obtain ⟨rd, h1, rfl, h2⟩ := mem_oneRefs hr
    exact T.refs d (mem_written.1 hd) rd h1 h2

theorem Writable.ok {h : Heap} {a : Addr} (w : Writable h a) : ∃ c, ObjOk h a c ∧ NamesOk c := by
  obtain ⟨p, hp, c, hc, h1, h2, T⟩ := w
  exact ⟨toCls c, T.ok h1 (by rintro hh; rw [hh] at h2; cases h2) (names_cls hp hc), names_cls hp hc⟩

/-! ### C46 -/

/-- The namespaces of CIM and RDF. -/
def nsOfCIM : Str := c!"http://iec.ch/TC57/2010/CIM-schema-cim15#"
def nsOfRDF : Str := c!"http://www.w3.org/1999/02/22-rdf-syntax-ns#"

/-- Name of the class of an object, and its identifier. -/
def className (h : Heap) (a : Addr) : Str := ((h.cls a).map Cls.name).getD []

/-- C46: the text is a well-formed document with root `rdf:RDF` that has one child per entry, in order, with
the class as tag and the UUID as `rdf:ID`. `e` is any encoding that can express all characters. -/
theorem C46_document {e : Codec} (he : e.Total) (hn : ∀ c ∈ e.name, isChar c = true ∧ c ≠ '?' ∧ c ≠ '\r')
    {h : Heap} {d : Dict} (ok : ∀ p ∈ d, Writable h p.2) :
    ∃ w t, cimwrite d ⟨h, W.new e⟩ = .ok ⟨⟩ ⟨h, w⟩ ∧ IsDoc w.out t ∧
      t.tag = '{' :: nsOfRDF ++ c!"}RDF" ∧ t.attrs = [] ∧ t.text = none ∧
      t.kids.map (fun k => (k.tag, k.attrs, k.text)) = d.map fun p =>
        ('{' :: nsOfCIM ++ '}' :: className h p.2,
          [('{' :: nsOfRDF ++ c!"}ID", (match attr h p.2 c!"UUID" with | some (.str u) => u | _ => []))], none) := by
  obtain ⟨w, h1, h2⟩ := write_doc he hn (h := h) (d := d) fun p hp => by
    obtain ⟨c, hc, -⟩ := (ok p hp).ok; exact ⟨c, hc⟩
  refine ⟨w, docElem h d, h1, h2, rfl, rfl, rfl, ?_⟩
  show (d.map fun p => objElem h p.2 ((h.cls p.2).getD [])).map _ = _
  rw [List.map_map]
  refine List.map_congr_left fun p hp => ?_
  obtain ⟨c, hc, -⟩ := (ok p hp).ok
  simp only [Function.comp, objElem, Elem.tag, Elem.attrs, Elem.text, className, hc.cls, Option.map_some,
    Option.getD_some]
  rfl

/-! ### C47 -/

/-- What can be written about an object of class `d`: an attribute, an enumeration or a reference. -/
inductive Slot
  | plain (p : Str × Lit)
  | enum (p : Str × Lit)
  | ref (r : Str)

def Slot.name : Slot → Str
  | .plain p => p.1
  | .enum p => p.1
  | .ref r => r

def Slot.items (h : Heap) (a : Addr) (d : ClassDef) : Slot → List PItem
  | .plain p => attrItem h a d p
  | .enum p => enumItem h a d p
  | .ref r => refItem h a d r

def slots (c : Cls) : List (ClassDef × Slot) :=
  (Cls.written c).flatMap (fun d => (ClassDef.plainAttrs d).map fun p => (d, .plain p)) ++
  ((Cls.written c).flatMap (fun d => (ClassDef.enumAttrs d).map fun p => (d, .enum p)) ++
   (Cls.written c).flatMap (fun d => (ClassDef.oneRefs d).map fun r => (d, .ref r)))

def slotKey (s : ClassDef × Slot) : Str × Str := (s.1.name, s.2.name)

theorem items_slots (h : Heap) (a : Addr) (c : Cls) :
    items h a c = (slots c).flatMap fun s => s.2.items h a s.1 := by
  simp [items, slots, List.flatMap_append, List.flatMap_assoc, List.flatMap_map, Slot.items]

theorem slot_items {h : Heap} {a : Addr} {d : ClassDef} {s : Slot} {i : PItem} (hi : i ∈ s.items h a d) :
    (i.cls, i.attr) = slotKey (d, s) := by
  cases s with
  | plain p =>
    simp only [Slot.items, attrItem] at hi
    split at hi
    · split at hi
      · cases hi
      · cases List.mem_singleton.1 hi; rfl
    · cases hi
  | enum p =>
    simp only [Slot.items, enumItem] at hi
    split at hi
    · cases List.mem_singleton.1 hi; rfl
    · cases hi
  | ref r =>
    simp only [Slot.items, refItem] at hi
    split at hi
    · cases List.mem_singleton.1 hi; rfl
    · cases hi

/-- All attributes and references, with the class declaring them. -/
def keys (ds : List ClassDef) : List (Str × Str) :=
  ds.flatMap fun d => (d.attrs.map (·.1) ++ d.refs.map (·.name)).map fun n => (d.name, n)

theorem keys_nodup : ∀ {ds : List ClassDef}, (∀ d ∈ ds, (d.attrs.map (·.1) ++ d.refs.map (·.name)).Nodup) →
    (ds.Pairwise fun d e => d.name = e.name → ∀ n ∈ d.attrs.map (·.1) ++ d.refs.map (·.name),
      n ∉ e.attrs.map (·.1) ++ e.refs.map (·.name)) → (keys ds).Nodup
  | [], _, _ => .nil
  | d :: ds, h1, h2 => by
    rw [List.pairwise_cons] at h2
    refine List.nodup_append.2 ⟨?_, keys_nodup (fun e he => h1 e (.tail _ he)) h2.2, ?_⟩
    · exact List.Pairwise.map _ (fun _ _ hh hd => hh (Prod.mk.inj hd).2) (h1 d (.head _))
    · rintro k hk k' hk' rfl
      obtain ⟨n, hn, rfl⟩ := List.mem_map.1 hk
      obtain ⟨e, he, hk'⟩ := List.mem_flatMap.1 hk'
      obtain ⟨m, hm, hh⟩ := List.mem_map.1 hk'
      obtain ⟨h3, rfl⟩ := Prod.mk.inj hh
      exact h2.1 e he h3.symm _ hn hm

theorem flatMap_append_perm {α β : Type} (f g : α → List β) : ∀ l : List α,
    (l.flatMap f ++ l.flatMap g).Perm (l.flatMap fun x => f x ++ g x)
  | [] => .nil
  | x :: l => by
    simp only [List.flatMap_cons]
    have := flatMap_append_perm f g l
    refine .trans ?_ (this.append_left (f x ++ g x))
    simp only [List.append_assoc]
    refine .append_left _ ?_
    rw [← List.append_assoc, ← List.append_assoc]
    exact .append_right _ List.perm_append_comm

theorem flatMap_sublist {α β : Type} {f g : α → List β} : ∀ {l : List α}, (∀ x ∈ l, (f x).Sublist (g x)) →
    (l.flatMap f).Sublist (l.flatMap g)
  | [], _ => .slnil
  | x :: l, h => by
    simp only [List.flatMap_cons]
    exact (h x (.head _)).append (flatMap_sublist fun y hy => h y (.tail _ hy))

theorem flatMap_perm {α β : Type} {f g : α → List β} : ∀ {l : List α}, (∀ x ∈ l, (f x).Perm (g x)) →
    (l.flatMap f).Perm (l.flatMap g)
  | [], _ => .nil
  | x :: l, h => by
    simp only [List.flatMap_cons]
    exact (h x (.head _)).append (flatMap_perm fun y hy => h y (.tail _ hy))

theorem slots_nodup {c : Cls} (N : NamesOk c) : ((slots c).map slotKey).Nodup := by
  have hd : c.dropLast.Sublist c := List.dropLast_sublist c
  have hw : Cls.written c = c.dropLast.reverse := by
    unfold Cls.written
    rw [List.drop_one, List.tail_reverse]
  have hk : (keys (Cls.written c)).Nodup := by
    refine keys_nodup (fun d hd => N.own d (mem_of_written hd)) ?_
    rw [hw, List.pairwise_reverse]
    refine (N.apart.sublist hd).imp ?_
    intro d e hh hn n h1 h2
    exact hh hn.symm n h2 h1
  have hp : ((slots c).map slotKey).Perm ((Cls.written c).flatMap fun d =>
      (ClassDef.plainAttrs d).map (fun p => (d.name, p.1)) ++
      ((ClassDef.enumAttrs d).map (fun p => (d.name, p.1)) ++ (ClassDef.oneRefs d).map fun r => (d.name, r))) := by
    simp only [slots, List.map_append, List.map_flatMap, List.map_map]
    refine .trans (.append_left _ (flatMap_append_perm _ _ _)) (flatMap_append_perm _ _ _)
  rw [hp.nodup_iff]
  have hp2 : ((Cls.written c).flatMap fun d =>
      (ClassDef.plainAttrs d).map (fun p => (d.name, p.1)) ++
      ((ClassDef.enumAttrs d).map (fun p => (d.name, p.1)) ++ (ClassDef.oneRefs d).map fun r => (d.name, r))).Perm
    ((Cls.written c).flatMap fun d => d.attrs.map (fun p => (d.name, p.1)) ++
      (ClassDef.oneRefs d).map fun r => (d.name, r)) := by
    refine flatMap_perm fun d _ => ?_
    rw [← List.append_assoc, ← List.map_append]
    refine .append_right _ (.map _ ?_)
    refine .trans List.perm_append_comm ?_
    exact List.filter_append_perm _ _
  rw [hp2.nodup_iff]
  refine hk.sublist (flatMap_sublist fun d _ => ?_)
  rw [List.map_append, List.map_map]
  refine .append (.refl _) ?_
  unfold ClassDef.oneRefs
  exact (List.filter_sublist.map _).map _

/-- Among lists with distinct keys, the elements with a given key. -/
theorem filter_key {α : Type} {κ : α → Str × Str} {f : α → List PItem} (hf : ∀ x i, i ∈ f x → (i.cls, i.attr) = κ x) :
    ∀ {l : List α}, (l.map κ).Nodup → ∀ k, (∀ x ∈ l, κ x = k →
      (l.flatMap f).filter (fun i => (i.cls, i.attr) = k) = f x) ∧
      (k ∉ l.map κ → (l.flatMap f).filter (fun i => (i.cls, i.attr) = k) = [])
  | [], _, k => ⟨nofun, fun _ => rfl⟩
  | y :: l, h, k => by
    rw [List.map_cons, List.nodup_cons] at h
    obtain ⟨ih1, ih2⟩ := filter_key hf h.2 k
    simp only [List.flatMap_cons, List.filter_append]
    have hy : κ y = k → (f y).filter (fun i => (i.cls, i.attr) = k) = f y := fun hh =>
      List.filter_eq_self.2 fun i hi => by simp [hf y i hi, hh]
    have hn : κ y ≠ k → (f y).filter (fun i => (i.cls, i.attr) = k) = [] := fun hh =>
      List.filter_eq_nil_iff.2 fun i hi => by simp [hf y i hi, hh]
    refine ⟨?_, ?_⟩
    · intro x hx hk
      rcases List.mem_cons.1 hx with rfl | hx
      · rw [hy hk, ih2 (by rw [← hk]; exact h.1), List.append_nil]
      · rw [hn ?_, ih1 x hx hk, List.nil_append]
        intro hh
        exact h.1 (List.mem_map.2 ⟨x, hx, by rw [hk, hh]⟩)
    · intro hk
      rw [List.map_cons, List.mem_cons, not_or] at hk
      rw [hn (fun hh => hk.1 hh.symm), ih2 hk.2, List.append_nil]

theorem cimName_inj {m n : Str} : cimName m = cimName n ↔ m = n := by
  unfold cimName
  simp

theorem dot_inj {a b x y : Str} (ha : '.' ∉ a) (hb : '.' ∉ b) (h : a ++ c!"." ++ x = b ++ c!"." ++ y) :
    a = b ∧ x = y := by
  induction a generalizing b with
  | nil =>
    cases b with
    | nil => simpa using h
    | cons c b =>
      simp only [List.nil_append, List.cons_append, List.cons.injEq] at h
      exact absurd h.1.symm (by rintro rfl; exact hb (.head _))
  | cons c a ih =>
    cases b with
    | nil =>
      simp only [List.nil_append, List.cons_append, List.cons.injEq] at h
      exact absurd h.1 (by rintro rfl; exact ha (.head _))
    | cons c' b =>
      simp only [List.cons_append, List.cons.injEq] at h
      obtain ⟨rfl, h⟩ := h
      obtain ⟨rfl, rfl⟩ := ih (fun hh => ha (.tail _ hh)) (fun hh => hb (.tail _ hh)) h
      exact ⟨rfl, rfl⟩

/-- The property elements `cim:C.n` of an object: text and attributes. -/
def propsOf (e : Elem) (cls n : Str) : List (Option Str × List (Str × Str)) :=
  (e.kids.filter fun k => k.tag = '{' :: nsOfCIM ++ '}' :: (cls ++ c!"." ++ n)).map fun k => (k.text, k.attrs)

theorem mem_slots {c : Cls} {d s} (h : (d, s) ∈ slots c) : d ∈ c.dropLast ∧
    (s.name ∈ d.attrs.map (·.1) ∨ ∃ r ∈ d.refs, r.kind.isMany = false ∧ s.name = r.name) := by
  simp only [slots, List.mem_append, List.mem_flatMap, List.mem_map] at h
  rcases h with ⟨d', hd, p, hp, hh⟩ | ⟨d', hd, p, hp, hh⟩ | ⟨d', hd, p, hp, hh⟩ <;> cases hh
  · exact ⟨mem_written.1 hd, .inl (List.mem_map.2 ⟨p, (plain_mem.1 hp).1, rfl⟩)⟩
  · exact ⟨mem_written.1 hd, .inl (List.mem_map.2 ⟨p, (enum_mem.1 hp).1, rfl⟩)⟩
  · obtain ⟨rd, h1, h2, h3⟩ := mem_oneRefs hp
    exact ⟨mem_written.1 hd, .inr ⟨rd, h1, h3, h2.symm⟩⟩

theorem item_cls {h : Heap} {a : Addr} {c : Cls} (N : NamesOk c) {i} (hi : i ∈ items h a c) : '.' ∉ i.cls := by
  rw [items_slots] at hi
  obtain ⟨s, hs, hi⟩ := List.mem_flatMap.1 hi
  have := slot_items hi
  rw [(Prod.mk.inj this).1]
  exact (N.names _ (List.dropLast_subset c (mem_slots hs).1)).noDot

theorem propsOf_obj {h : Heap} {a : Addr} {c : Cls} (N : NamesOk c) {cls n : Str} (hc : '.' ∉ cls) :
    propsOf (objElem h a c) cls n = ((items h a c).filter fun i => (i.cls, i.attr) = (cls, n)).map fun i =>
      (i.elem.text, i.elem.attrs) := by
  unfold propsOf
  show (((items h a c).map PItem.elem).filter _).map _ = _
  rw [List.filter_map, List.map_map]
  congr 1
  refine List.filter_congr fun i hi => ?_
  have hdot := item_cls N hi
  simp only [Function.comp, decide_eq_decide]
  constructor
  · intro hh
    have := cimName_inj.1 (show cimName i.name = cimName (cls ++ c!"." ++ n) from hh)
    obtain ⟨h1, h2⟩ := dot_inj hdot hc this
    rw [h1, h2]
  · intro hh
    cases hh
    rfl

theorem propsOf_slot {h : Heap} {a : Addr} {c : Cls} (N : NamesOk c) {d s} (hs : (d, s) ∈ slots c) :
    propsOf (objElem h a c) d.name s.name = (s.items h a d).map fun i => (i.elem.text, i.elem.attrs) := by
  rw [propsOf_obj N (N.names d (List.dropLast_subset c (mem_slots hs).1)).noDot, items_slots,
    (filter_key (κ := slotKey) (f := fun s => s.2.items h a s.1) (fun x i hi => slot_items hi) (slots_nodup N)
      (d.name, s.name)).1 (d, s) hs rfl]

/-- C47: in the element of an object of class `c` (`c.dropLast`: the classes of its MRO but `Element`) -/
structure Written (h : Heap) (a : Addr) (c : Cls) (e : Elem) : Prop where
  /-- a plain attribute has one element with its text exactly when it differs from the default, -/
  attr : ∀ d ∈ c.dropLast, ∀ p ∈ d.attrs, p.1 ∉ d.enums.map (·.1) → ∀ v, Props.attr h a p.1 = some v →
    (Equals v p.2 → propsOf e d.name p.1 = []) ∧
    (¬ Equals v p.2 → ∃ t, strOf v = some t ∧
      propsOf e d.name p.1 = [(if t = [] then none else some t, [])])
  /-- an enumeration always has one, with the URI of the enumeration and the value, -/
  enum : ∀ d ∈ c.dropLast, ∀ p ∈ d.attrs, ∀ q ∈ d.enums, q.1 = p.1 → d.enums.lookup q.1 = some q.2 →
    ∀ v, Props.attr h a p.1 = some v → ∃ t, strOf v = some t ∧
      propsOf e d.name p.1 = [(none, [('{' :: nsOfRDF ++ c!"}resource", nsOfCIM ++ q.2 ++ c!"." ++ t)])]
  /-- a to-one reference has one, with the identifier of the other object, exactly when it is not None, -/
  ref : ∀ d ∈ c.dropLast, ∀ r ∈ d.refs, r.kind.isMany = false →
    (Props.attr h a r.name = some .none → propsOf e d.name r.name = []) ∧
    (∀ b u, Props.attr h a r.name = some (.obj b) → Props.attr h b c!"UUID" = some (.str u) →
      propsOf e d.name r.name = [(none, [('{' :: nsOfRDF ++ c!"}resource", '#' :: u)])])
  /-- a collection has none, -/
  many : ∀ d ∈ c.dropLast, ∀ r ∈ d.refs, r.kind.isMany = true → propsOf e d.name r.name = []
  /-- and there are no others. -/
  only : ∀ k ∈ e.kids, k.kids = [] ∧ ∃ d ∈ c.dropLast, ∃ n, k.tag = '{' :: nsOfCIM ++ '}' :: (d.name ++ c!"." ++ n) ∧
    (n ∈ d.attrs.map (·.1) ∨ ∃ r ∈ d.refs, r.kind.isMany = false ∧ n = r.name)

theorem slot_plain {c : Cls} {d p} (hd : d ∈ c.dropLast) (hp : p ∈ d.attrs) (he : p.1 ∉ d.enums.map (·.1)) :
    (d, Slot.plain p) ∈ slots c := by
  simp only [slots, List.mem_append, List.mem_flatMap, List.mem_map]
  exact .inl ⟨d, mem_written.2 hd, p, plain_mem.2 ⟨hp, he⟩, rfl⟩

theorem slot_enum {c : Cls} {d p} (hd : d ∈ c.dropLast) (hp : p ∈ d.attrs) (he : p.1 ∈ d.enums.map (·.1)) :
    (d, Slot.enum p) ∈ slots c := by
  simp only [slots, List.mem_append, List.mem_flatMap, List.mem_map]
  exact .inr (.inl ⟨d, mem_written.2 hd, p, enum_mem.2 ⟨hp, he⟩, rfl⟩)

theorem slot_ref {c : Cls} {d} {r : RefDef} (hd : d ∈ c.dropLast) (hr : r ∈ d.refs) (hm : r.kind.isMany = false) :
    (d, Slot.ref r.name) ∈ slots c := by
  simp only [slots, List.mem_append, List.mem_flatMap, List.mem_map]
  refine .inr (.inr ⟨d, mem_written.2 hd, r.name, ?_, rfl⟩)
  exact List.mem_map.2 ⟨r, List.mem_filter.2 ⟨hr, by simp [hm]⟩, rfl⟩

theorem inj_of_nodup {α β : Type} {f : α → β} : ∀ {l : List α}, (l.map f).Nodup → ∀ {x y}, x ∈ l → y ∈ l →
    f x = f y → x = y
  | z :: l, h, x, y, hx, hy, e => by
    rw [List.map_cons, List.nodup_cons] at h
    rcases List.mem_cons.1 hx with e1 | e1 <;> rcases List.mem_cons.1 hy with e2 | e2
    · rw [e1, e2]
    · subst e1; exact absurd (List.mem_map.2 ⟨y, e2, e.symm⟩) h.1
    · subst e2; exact absurd (List.mem_map.2 ⟨x, e1, e⟩) h.1
    · exact inj_of_nodup h.2 e1 e2 e

/-- The keys of two classes with the same name and a common attribute coincide. -/
theorem keys_eq {c : Cls} (N : NamesOk c) {d d' : ClassDef} (hd : d ∈ c) (hd' : d' ∈ c) (hn : d.name = d'.name) {n}
    (h1 : n ∈ d.attrs.map (·.1) ++ d.refs.map (·.name)) (h2 : n ∈ d'.attrs.map (·.1) ++ d'.refs.map (·.name)) :
    d = d' := by
  have := N.apart
  revert hd hd'
  generalize c = l at this
  induction this with
  | nil => nofun
  | cons h _ ih =>
    intro hd hd'
    rcases List.mem_cons.1 hd with e1 | e1 <;> rcases List.mem_cons.1 hd' with e2 | e2
    · rw [e1, e2]
    · subst e1; exact absurd h2 (h _ e2 hn _ h1)
    · subst e2; exact absurd h1 (h _ e1 hn.symm _ h2)
    · exact ih e1 e2

theorem written_obj {h : Heap} {a : Addr} {c : Cls} (T : Textable h a c) (N : NamesOk c) :
    Written h a c (objElem h a c) where
  attr d hd p hp he v hv := by
    have hs := propsOf_slot (h := h) (a := a) N (slot_plain hd hp he)
    obtain ⟨v', t, h1, h2, -, -⟩ := T.attrs d hd p hp
    rw [hv] at h1
    cases h1
    simp only [Slot.name, Slot.items, attrItem, hv] at hs
    refine ⟨fun hq => by rw [hs, valEq_iff.2 hq]; rfl, fun hq => ⟨t, h2, ?_⟩⟩
    rw [hs, Bool.eq_false_iff.2 (fun hh => hq (valEq_iff.1 hh)), h2]
    rfl
  enum d hd p hp q hq hqp hl v hv := by
    have he : p.1 ∈ d.enums.map (·.1) := List.mem_map.2 ⟨q, hq, hqp⟩
    have hs := propsOf_slot (h := h) (a := a) N (slot_enum hd hp he)
    obtain ⟨v', t, h1, h2, -, -⟩ := T.attrs d hd p hp
    rw [hv] at h1
    cases h1
    refine ⟨t, h2, ?_⟩
    rw [hqp] at hl
    have hb : (some v).bind strOf = some t := h2
    simp only [Slot.name, Slot.items, enumItem, hv, hb, hl] at hs
    exact hs
  ref d hd r hr hm := by
    have hs := propsOf_slot (h := h) (a := a) N (slot_ref hd hr hm)
    simp only [Slot.name, Slot.items, refItem] at hs
    refine ⟨fun hv => by rw [hs, hv]; rfl, fun b u hv hu => ?_⟩
    rw [hs, hv]
    simp only [uuidOf, hu]
    rfl
  many d hd r hr hm := by
    have hdc := List.dropLast_subset c hd
    rw [propsOf_obj N (N.names d hdc).noDot, items_slots,
      (filter_key (κ := slotKey) (f := fun s => s.2.items h a s.1) (fun x i hi => slot_items hi) (slots_nodup N)
        (d.name, r.name)).2, List.map_nil]
    intro hk
    obtain ⟨⟨d', s⟩, hs, hk⟩ := List.mem_map.1 hk
    obtain ⟨h1, h2⟩ := Prod.mk.inj hk
    dsimp only at h1 h2
    obtain ⟨hd', h3⟩ := mem_slots hs
    have hr1 : r.name ∈ d.attrs.map (·.1) ++ d.refs.map (·.name) :=
      List.mem_append_right _ (List.mem_map.2 ⟨r, hr, rfl⟩)
    have hr2 : r.name ∈ d'.attrs.map (·.1) ++ d'.refs.map (·.name) := by
      rcases h3 with h3 | ⟨r', h3, -, h4⟩
      · rw [h2] at h3; exact List.mem_append_left _ h3
      · exact List.mem_append_right _ (List.mem_map.2 ⟨r', h3, by rw [← h4, h2]⟩)
    obtain rfl := keys_eq N (List.dropLast_subset c hd') hdc h1 hr2 hr1
    have hnd := N.own d' hdc
    rw [List.nodup_append] at hnd
    rcases h3 with h3 | ⟨r', h3, h4, h5⟩
    · rw [h2] at h3
      exact hnd.2.2 _ h3 _ (List.mem_map.2 ⟨r, hr, rfl⟩) rfl
    · have : r' = r := inj_of_nodup hnd.2.1 h3 hr (by rw [← h5, h2])
      rw [this, hm] at h4; cases h4
  only k hk := by
    obtain ⟨i, hi, rfl⟩ := List.mem_map.1 (show k ∈ (items h a c).map PItem.elem from hk)
    refine ⟨rfl, ?_⟩
    rw [items_slots] at hi
    obtain ⟨⟨d, s⟩, hs, hi⟩ := List.mem_flatMap.1 hi
    obtain ⟨h1, h2⟩ := Prod.mk.inj (slot_items hi)
    obtain ⟨h3, h4⟩ := mem_slots hs
    refine ⟨d, h3, s.name, ?_, h4⟩
    show cimName (i.cls ++ c!"." ++ i.attr) = _
    rw [h1, h2]
    rfl

/-- C47. -/
theorem C47_properties {e : Codec} (he : e.Total) (hn : ∀ c ∈ e.name, isChar c = true ∧ c ≠ '?' ∧ c ≠ '\r')
    {h : Heap} {d : Dict} (ok : ∀ p ∈ d, Writable h p.2) :
    ∃ w t, cimwrite d ⟨h, W.new e⟩ = .ok ⟨⟩ ⟨h, w⟩ ∧ IsDoc w.out t ∧ t.kids.length = d.length ∧
      ∀ (i : Nat) u a, d[i]? = some (u, a) → ∃ k c, t.kids[i]? = some k ∧ h.cls a = some c ∧ Written h a c k := by
  obtain ⟨w, h1, h2⟩ := write_doc he hn (h := h) (d := d) fun p hp => by
    obtain ⟨c, hc, -⟩ := (ok p hp).ok; exact ⟨c, hc⟩
  refine ⟨w, docElem h d, h1, h2, by simp [docElem, Elem.kids], ?_⟩
  intro i u a hi
  obtain ⟨p, hp, c, hc, h3, h4, T⟩ := ok (u, a) (List.mem_of_getElem? hi)
  refine ⟨objElem h a (toCls c), toCls c, ?_, h3, written_obj T (names_cls hp hc)⟩
  show (d.map fun p => objElem h p.2 ((h.cls p.2).getD []))[i]? = _
  rw [List.getElem?_map, hi]
  dsimp only at h3
  simp [h3]

/-! ### C48 -/

/-- A computation that does not touch the objects. -/
def Keeps {α : Type} (x : CPy α) : Prop := ∀ s, (x s).state.heap = s.heap

namespace Keeps

theorem pure {α : Type} (a : α) : Keeps (Py.pure a : CPy α) := fun _ => rfl
theorem throw {α : Type} (e : Err) : Keeps (Py.throw e : CPy α) := fun _ => rfl

theorem bind {α β : Type} {x : CPy α} {f : α → CPy β} (hx : Keeps x) (hf : ∀ a, Keeps (f a)) : Keeps (Py.bind x f) := by
  intro s
  have := hx s
  unfold Py.bind
  cases hr : x s with
  | ok a s' => rw [hr] at this; exact (hf a s').trans this
  | err e s' => rw [hr] at this; exact this

theorem forEach {ι : Type} {f : ι → CPy Unit} (hf : ∀ i, Keeps (f i)) : ∀ l, Keeps (Py.forEach f l)
  | [] => pure _
  | _ :: l => bind (hf _) fun _ => forEach hf l

theorem onWriter {α : Type} (x : WPy α) : Keeps (onWriter x) := fun s => by
  unfold Cim.onWriter; cases x s.w <;> rfl

theorem onHeap {α : Type} {x : HPy α} (hx : ∀ h, (x h).state = h) : Keeps (onHeap x) := fun s => by
  have := hx s.heap
  unfold Cim.onHeap
  cases hr : x s.heap <;> rw [hr] at this <;> exact this

theorem getAttr (a n) : Keeps (Cim.onHeap (Cim.getAttr a n)) := onHeap (getAttr_state a n)

theorem getAttrV (v n) : Keeps (Cim.onHeap (Cim.getAttrV v n)) := onHeap fun h => by
  cases v <;> first | rfl | exact getAttr_state _ n h

theorem pyStr (v) : Keeps (Cim.pyStr v) := by
  unfold Cim.pyStr
  split <;> first | exact pure _ | exact throw _

theorem ite {α : Type} {p : Prop} [Decidable p] {x y : CPy α} (hx : Keeps x) (hy : Keeps y) :
    Keeps (if p then x else y) := by split <;> assumption

end Keeps

/-- C48: whatever is written, and also when the call raises (an attribute is missing, an identifier is not a
string …), the objects are left as they are. -/
theorem C48_unchanged (d : Dict) (s : WState) : (cimwrite d s).state.heap = s.heap := by
  suffices Keeps (cimwrite d) from this s
  unfold cimwrite
  refine .bind (.onWriter _) fun _ => .bind (.onWriter _) fun _ => .bind (.forEach (fun p => ?_) _) fun _ => .onWriter _
  intro s
  unfold writeObject
  split
  · rfl
  · rename_i c _
    refine (Keeps.bind (.getAttr _ _) fun u => ?_) s
    split
    · refine .bind (.onWriter _) fun _ => .bind (.forEach (fun d => .forEach (fun q => ?_) _) _) fun _ =>
        .bind (.forEach (fun d => .forEach (fun q => ?_) _) _) fun _ =>
        .bind (.forEach (fun d => .forEach (fun q => ?_) _) _) fun _ => .onWriter _
      · exact .bind (.getAttr _ _) fun v => .ite (.throw _) (.ite (.pure _) (.bind (.pyStr _) fun _ => .onWriter _))
      · exact .bind (.getAttr _ _) fun v => .bind (.pyStr _) fun _ => .onWriter _
      · exact .bind (.getAttr _ _) fun v => .ite (.pure _)
          (.bind (.getAttrV _ _) fun _ => .bind (.pyStr _) fun _ => .onWriter _)
    · exact .throw _
    · exact .bind (.onWriter _) fun _ => .throw _

end Props
end Verif
