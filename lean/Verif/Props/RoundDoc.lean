import Verif.Props.Write
import Verif.Props.ReadDoc
import Verif.Gen.RoundCls
/-
The document written by cimwrite, as cimread understands it: statements, classes, context.
-/
namespace Verif
namespace Props
open Cim Py Hp Spec Xml Gen

/-- A model that can be written and read back: a dict from identifiers to objects of a heap without
dangling or one-sided links, of classes `K`. -/
structure ModelOf (K : Cls → Prop) (h : Heap) (d : Dict) : Prop where
  live : Live h
  keys : (d.map (·.1)).Nodup
  /-- the keys are the identifiers -/
  ids : ∀ u a, (u, a) ∈ d → attr h a c!"UUID" = some (.str u) ∧ AttrOk u
  cls : ∀ u a, (u, a) ∈ d → ∃ c, h.cls a = some c ∧ K c
  /-- plain attributes have a value of the type of the default; strings survive XML -/
  attrs : ∀ u a c, (u, a) ∈ d → h.cls a = some c → ∀ e ∈ c.dropLast, ∀ p ∈ e.attrs, p.1 ∉ e.enums.map (·.1) →
    ∃ l : Lit, attr h a p.1 = some l.toVal ∧ l.ty = p.2.ty ∧ ∀ s, l = .str s → TextOk s
  /-- enumeration values have no "." -/
  enums : ∀ u a c, (u, a) ∈ d → h.cls a = some c → ∀ e ∈ c.dropLast, ∀ p ∈ e.attrs, p.1 ∈ e.enums.map (·.1) →
    ∃ s, attr h a p.1 = some (.str s) ∧ AttrOk s ∧ '.' ∉ s
  /-- to-one references are None or lead to an identified object; if its identifier is a key, then
  it is the object of that key -/
  refs : ∀ u a c, (u, a) ∈ d → h.cls a = some c → ∀ e ∈ c.dropLast, ∀ r ∈ e.refs, r.kind.isMany = false →
    attr h a r.name = some .none ∨
      ∃ b w, attr h a r.name = some (.obj b) ∧ attr h b c!"UUID" = some (.str w) ∧ AttrOk w ∧
        ∀ b', (w, b') ∈ d → b' = b

theorem ModelOf.imp {K K' : Cls → Prop} {h d} (M : ModelOf K h d) (hk : ∀ c, K c → K' c) : ModelOf K' h d :=
  ⟨M.live, M.keys, M.ids, fun u a hu => (M.cls u a hu).imp fun _ h => ⟨h.1, hk _ h.2⟩, M.attrs, M.enums, M.refs⟩

/-- Classes that are found under their names in `m` and can be read back. -/
abbrev Model (m : PkgMap) := ModelOf fun c => m.lookup (Cls.name c) = some c ∧ RoundCls c

/-! ### Tags and identifiers -/

theorem name_cim (m : PkgMap) (n : Str) : (vW m).name? (cimName n) = some n := Voc.name?_iff.2 rfl

theorem rdfAttr_eq (m : PkgMap) (n : Str) : (vW m).rdfAttr n = rdfName n := rfl

theorem item_lookup (i : PItem) : i.elem.attrs.lookup (rdfName c!"ID") = none ∧
    i.elem.attrs.lookup (rdfName c!"about") = none ∧ i.elem.attrs.lookup (rdfName c!"resource") = i.res := by
  unfold PItem.elem
  cases hr : i.res with
  | none => exact ⟨rfl, rfl, rfl⟩
  | some r =>
    simp only [Elem.attrs]
    have h1 : (rdfName c!"ID" == rdfName c!"resource") = false := by decide
    have h2 : (rdfName c!"about" == rdfName c!"resource") = false := by decide
    refine ⟨?_, ?_, ?_⟩ <;> simp [List.lookup, h1, h2]

theorem id_item (m : PkgMap) (i : PItem) : (vW m).id? i.elem = none := by
  unfold Voc.id?
  rw [rdfAttr_eq, rdfAttr_eq, (item_lookup i).1, (item_lookup i).2.1]
  rfl

theorem id_obj (m : PkgMap) (h a c) : (vW m).id? (objElem h a c) = some (uuidOf h a) := by
  unfold Voc.id?
  rw [rdfAttr_eq]
  have : (objElem h a c).attrs.lookup (rdfName c!"ID") = some (uuidOf h a) := by
    simp [objElem, Elem.attrs]
  rw [this]

theorem subj_obj (m : PkgMap) (h a c) : (vW m).subj? (objElem h a c) = some (uuidOf h a) := by
  unfold Voc.subj?
  have : (objElem h a c).tag = cimName (Cls.name c) := rfl
  rw [this, name_cim, if_pos (by rfl), id_obj]

theorem post_item (i : PItem) : Elem.post i.elem = [i.elem] := rfl

theorem postAll_items : ∀ L : List PItem, Elem.postAll (L.map PItem.elem) = L.map PItem.elem
  | [] => rfl
  | i :: L => by
    rw [List.map_cons, Elem.postAll, postAll_items L, post_item]; rfl

/-- What a property element of `u` says. -/
def stmtOf (u : Str) (i : PItem) : Stmt := ⟨u, i.attr, i.res, i.text.bind textOf⟩

theorem stmt_item (m : PkgMap) (u : Str) {i : PItem} (hd : '.' ∉ i.attr) : (vW m).stmt? u i.elem = some (stmtOf u i) := by
  unfold Voc.stmt?
  have ht : i.elem.tag = cimName i.name := rfl
  have hn : Str.afterLast '.' i.name = i.attr := by
    unfold PItem.name
    rw [List.append_assoc]
    exact afterLast_append '.' _ hd i.cls
  rw [id_item, ht, name_cim, Option.map_some, rdfAttr_eq, (item_lookup i).2.2, hn]
  rfl

theorem item_attr {h : Heap} {a : Addr} {c : Cls} (N : NamesOk c) {i} (hi : i ∈ items h a c) : '.' ∉ i.attr := by
  rw [items_slots] at hi
  obtain ⟨s, hs, hi⟩ := List.mem_flatMap.1 hi
  rw [(Prod.mk.inj (slot_items hi)).2]
  obtain ⟨h1, h2⟩ := mem_slots hs
  have h1 := List.dropLast_subset c h1
  rcases h2 with h2 | ⟨r, h2, -, h3⟩
  · obtain ⟨p, hp, h3⟩ := List.mem_map.1 h2
    rw [← h3]
    exact (N.attrs _ h1 p hp).noDot
  · rw [h3]
    exact (N.refs _ h1 r h2).noDot

/-! ### Statements -/

theorem lookup_mem {d : Dict} {u : Str} {a : Addr} (h : d.lookup u = some a) : (u, a) ∈ d := by
  obtain ⟨l1, l2, h, -⟩ := List.lookup_eq_some_iff.1 h
  rw [h]; simp

theorem mem_lookup {d : Dict} (k : (d.map (·.1)).Nodup) {u : Str} {a : Addr} (h : (u, a) ∈ d) : d.lookup u = some a := by
  induction d with
  | nil => cases h
  | cons p d ih =>
    rw [List.map_cons, List.nodup_cons] at k
    rw [List.lookup_cons]
    rcases List.mem_cons.1 h with rfl | h
    · simp
    · have : (u == p.1) = false := by
        rw [beq_eq_false_iff_ne]
        intro hh
        exact k.1 (List.mem_map.2 ⟨(u, a), h, hh⟩)
      rw [this]
      exact ih k.2 h

section
variable {m : PkgMap} {h : Heap} {d : Dict} (M : Model m h d)
include M

theorem Model.uuid {u a} (hu : (u, a) ∈ d) : uuidOf h a = u := by
  unfold uuidOf
  rw [(M.ids u a hu).1]

/-- The statements of an object. -/
def sts (h : Heap) (p : Str × Addr) : List Stmt := (items h p.2 ((h.cls p.2).getD [])).map (stmtOf p.1)

omit M in
theorem filterMap_eq_map {α β : Type} {f : α → Option β} {g : α → β} : ∀ {l : List α}, (∀ x ∈ l, f x = some (g x)) →
    l.filterMap f = l.map g
  | [], _ => rfl
  | x :: l, hh => by
    rw [List.filterMap_cons, hh x (.head _), List.map_cons, filterMap_eq_map fun y hy => hh y (.tail _ hy)]

theorem Model.stmts {p} (hp : p ∈ d) : (vW m).stmts (objElem h p.2 ((h.cls p.2).getD [])) = sts h p := by
  obtain ⟨c, hc, -, R⟩ := M.cls p.1 p.2 hp
  rw [hc]
  dsimp only [Option.getD_some]
  have hs := subj_obj m h p.2 c
  unfold objElem at hs ⊢
  rw [Voc.stmts, hs]
  dsimp only
  rw [postAll_items, M.uuid (u := p.1) hp]
  unfold sts
  rw [hc, List.filterMap_map]
  exact filterMap_eq_map fun i hi => stmt_item m p.1 (item_attr R.names hi)

theorem Model.says : (vW m).says (docElem h d) = d.flatMap (sts h) := by
  have key : ∀ d' : Dict, (∀ p ∈ d', p ∈ d) →
      (vW m).stmtsAll (d'.map fun p => objElem h p.2 ((h.cls p.2).getD [])) = d'.flatMap (sts h) := by
    intro d'
    induction d' with
    | nil => intro _; rfl
    | cons p d' ih =>
      intro hh
      rw [List.map_cons, Voc.stmtsAll, M.stmts (hh p (.head _)), ih fun q hq => hh q (.tail _ hq)]
      rfl
  exact key d fun _ hp => hp

omit M in
theorem flat_doc (m : PkgMap) (h : Heap) (d : Dict) : (vW m).FlatAll (docElem h d).kids := by
  have key : ∀ d' : Dict, (vW m).FlatAll (d'.map fun p => objElem h p.2 ((h.cls p.2).getD [])) := by
    intro d'
    induction d' with
    | nil => trivial
    | cons p d' ih =>
      refine ⟨?_, ih⟩
      have hs := subj_obj m h p.2 ((h.cls p.2).getD [])
      unfold objElem at hs ⊢
      rw [Voc.Flat, hs]
      dsimp only
      rw [postAll_items]
      intro e he
      obtain ⟨i, -, rfl⟩ := List.mem_map.1 he
      unfold Voc.subj?
      rw [id_item, ite_self]
  exact key d

/-! ### Classes -/

omit M in
theorem inst_doc (h : Heap) (d : Dict) (hd : d ≠ []) : (docElem h d).inst =
    d.flatMap fun p => (items h p.2 ((h.cls p.2).getD [])).map PItem.elem ++ [objElem h p.2 ((h.cls p.2).getD [])] := by
  unfold Elem.inst
  have hk : (docElem h d).kids = d.map fun p => objElem h p.2 ((h.cls p.2).getD []) := rfl
  rw [hk, if_neg (by simp [hd])]
  clear hd hk
  induction d with
  | nil => rfl
  | cons p d ih =>
    rw [List.map_cons, Elem.postAll, ih, List.flatMap_cons]
    congr 1
    unfold objElem
    rw [Elem.post, postAll_items]

omit M in
theorem root_name (m : PkgMap) (h : Heap) (d : Dict) : (vW m).name? (docElem h d).tag = none := by
  show (vW m).name? (rdfName c!"RDF") = none
  unfold Voc.name? vW
  dsimp only
  exact if_neg (by decide)

/-- The elements with an identifier are those of the entries. -/
theorem Model.inst {e n u} (he : e ∈ (docElem h d).inst) (hd : (vW m).Describes e n u) :
    ∃ a c, (u, a) ∈ d ∧ h.cls a = some c ∧ n = Cls.name c := by
  obtain ⟨h1, h2⟩ := hd
  have h1 := Voc.name?_iff.2 h1
  have h2 := Voc.id?_iff.2 h2
  by_cases h0 : d = []
  · subst h0
    have : e = docElem h [] := List.mem_singleton.1 he
    rw [this, root_name] at h1; cases h1
  · rw [inst_doc h d h0] at he
    obtain ⟨p, hp, he⟩ := List.mem_flatMap.1 he
    rcases List.mem_append.1 he with he | he
    · obtain ⟨i, -, rfl⟩ := List.mem_map.1 he
      rw [id_item] at h2; cases h2
    · rw [List.mem_singleton] at he
      subst he
      obtain ⟨c, hc, -⟩ := M.cls p.1 p.2 hp
      rw [id_obj, M.uuid (u := p.1) hp] at h2
      cases h2
      rw [hc] at h1
      have : (vW m).name? (cimName (Cls.name c)) = some n := h1
      rw [name_cim] at this
      cases this
      exact ⟨p.2, c, hp, hc, rfl⟩

theorem Model.instantiable : (vW m).Instantiable (docElem h d) := by
  intro e he n u c hd hl
  obtain ⟨a, c', h1, h2, rfl⟩ := M.inst he hd
  obtain ⟨c'', h3, h4, R⟩ := M.cls u a h1
  rw [h2] at h3; cases h3
  rw [show (vW m).map = m from rfl, h4] at hl
  cases hl
  exact ⟨R.wf, R.ident⟩

theorem Model.classOf (u : Str) : (vW m).classOf (docElem h d) u = (d.lookup u).bind h.cls := by
  unfold Voc.classOf
  by_cases h0 : d = []
  · subst h0
    show ([docElem h []].reverse.findSome? fun e => _) = none
    simp only [List.reverse_cons, List.reverse_nil, List.nil_append, List.findSome?_cons, List.findSome?_nil]
    rw [root_name]
    split <;> first | rfl | (rename_i hh; split at hh <;> cases hh)
  · rw [inst_doc h d h0]
    clear h0
    have key : ∀ d' : Dict, (∀ p ∈ d', p ∈ d) → (d'.map (·.1)).Nodup →
      (d'.flatMap fun p => (items h p.2 ((h.cls p.2).getD [])).map PItem.elem ++
        [objElem h p.2 ((h.cls p.2).getD [])]).reverse.findSome? (fun e =>
          if (vW m).id? e = some u then ((vW m).name? e.tag).bind fun n => (vW m).map.lookup n else none) =
        (d'.lookup u).bind h.cls := by
      intro d'
      induction d' with
      | nil => intro _ _; rfl
      | cons p d' ih =>
        intro hh hk
        rw [List.map_cons, List.nodup_cons] at hk
        rw [List.flatMap_cons, List.reverse_append, List.findSome?_append, ih (fun q hq => hh q (.tail _ hq)) hk.2,
          List.reverse_append, List.findSome?_append, List.reverse_singleton, List.findSome?_singleton]
        obtain ⟨c, hc, hl, R⟩ := M.cls p.1 p.2 (hh p (.head _))
        have hit : (List.map PItem.elem (items h p.2 ((h.cls p.2).getD []))).reverse.findSome? (fun e =>
            if (vW m).id? e = some u then ((vW m).name? e.tag).bind fun n => (vW m).map.lookup n else none) = none := by
          refine findSome_none fun e he => ?_
          obtain ⟨i, -, rfl⟩ := List.mem_map.1 (List.mem_reverse.1 he)
          rw [id_item, if_neg (by simp)]
        rw [hit, Option.or_none, id_obj, M.uuid (u := p.1) (hh p (.head _)), List.lookup_cons]
        by_cases hu : p.1 = u
        · subst hu
          have : d'.lookup p.1 = none := by
            cases hx : d'.lookup p.1 with
            | none => rfl
            | some x => exact absurd (List.mem_map.2 ⟨_, lookup_mem hx, rfl⟩) hk.1
          rw [this, if_pos rfl, hc]
          have ht : (objElem h p.2 c).tag = cimName (Cls.name c) := rfl
          dsimp only [Option.getD_some]
          rw [ht, name_cim, beq_self_eq_true]
          show (none : Option Cls).or (m.lookup (Cls.name c)) = h.cls p.2
          rw [hl, hc]; rfl
        · have hb : (u == p.1) = false := by rw [beq_eq_false_iff_ne]; exact fun hh => hu hh.symm
          rw [if_neg (by rw [Option.some.injEq]; exact hu), hb, Option.or_none]
    exact key d (fun _ hp => hp) M.keys

theorem Model.ctx_cls (h0 : Heap) (u : Str) : ((vW m).ctx (docElem h d) h0 []).cls u = (d.lookup u).bind h.cls := by
  simp only [Voc.ctx, M.classOf]
  cases (d.lookup u).bind h.cls <;> rfl

theorem Model.ctx_val (h0 : Heap) (u n : Str) : ((vW m).ctx (docElem h d) h0 []).val u n =
    (d.lookup u).bind fun a => (h.cls a).bind fun c => fresh c u n := by
  simp only [Voc.ctx, M.classOf]
  cases hu : d.lookup u with
  | none => rfl
  | some a =>
    simp only [Option.bind_some]
    cases h.cls a <;> rfl

end

end Props
end Verif
