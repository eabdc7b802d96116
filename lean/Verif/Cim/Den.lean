import Verif.Spec.Doc
import Verif.Cim.Exact
/-
The reader's second pass carries out the statements of the document.
-/
namespace Verif
namespace Cim
open Py Hp Xml Spec Props

/-! ### The statements found by the event loop -/

/-- A statement as the reader carries it out. -/
def _root_.Verif.Spec.Stmt.item (d : Dict) (st : Stmt) : Option Item :=
  (d.lookup st.subj).map fun a => ⟨a, st.attr, st.res, st.text⟩

section
variable (v : Voc) (f : Nat) (d : Dict)

theorem inBase_name (tag : Str) : (v.cfg f).inBase tag = (v.name? tag).isSome := by
  unfold Cfg.inBase Voc.name? Voc.cfg
  dsimp only
  split <;> simp_all

theorem local_name {tag n : Str} (h : v.name? tag = some n) : (v.cfg f).local tag = n := by
  rw [Voc.name?_iff.1 h, local_tagOf]

theorem idOf_id (e : Elem) : (v.cfg f).idOf e.attrs = v.id? e := rfl

/-- The item of an element inside the description of an object. -/
def propItem (a : Addr) (e : Elem) : Option Item :=
  match v.id? e with
  | some _ => none
  | none => (v.name? e.tag).map fun n => ⟨a, Str.afterLast '.' n, e.attrs.lookup (v.rdfAttr c!"resource"), e.text⟩

theorem assigns_fin (a : Addr) (e : Elem) (h : v.subj? e = none) (r : Bool) (es : List Ev) :
    assigns (v.cfg f) d (some a) (.fin r e.tag e.attrs e.text :: es) =
      (propItem v a e).toList ++ assigns (v.cfg f) d (some a) es := by
  unfold Voc.subj? at h
  rw [assigns]
  unfold propItem
  rw [inBase_name, idOf_id]
  cases hn : v.name? e.tag with
  | none => cases v.id? e <;> simp
  | some n =>
    rw [hn] at h
    simp only [Option.isSome_some, if_true] at h ⊢
    rw [h]
    simp only [Option.map_some, Option.toList_some, List.singleton_append]
    congr 1
    unfold Cfg.item
    rw [local_name v f hn]
    rfl

mutual
theorem assigns_in (a : Addr) : ∀ (e : Elem) (es : List Ev), (∀ x ∈ e.post, v.subj? x = none) →
    assigns (v.cfg f) d (some a) (e.evsN false ++ es) =
      e.post.filterMap (propItem v a) ++ assigns (v.cfg f) d (some a) es
  | .mk ds t as x ks, es, h => by
    simp only [Elem.evsN, Elem.post, List.cons_append, List.append_assoc, List.nil_append] at h ⊢
    show assigns (v.cfg f) d (some a) (Elem.evsNAll ks ++ _) = _
    rw [assigns_inAll a ks _ (fun y hy => h y (by simp [hy])),
      show Ev.fin false t as x :: es = Ev.fin false (Elem.mk ds t as x ks).tag (Elem.mk ds t as x ks).attrs
        (Elem.mk ds t as x ks).text :: es from rfl, assigns_fin v f d a _ (h _ (by simp))]
    rw [List.filterMap_append, List.append_assoc]
    congr 1
theorem assigns_inAll (a : Addr) : ∀ (ks : List Elem) (es : List Ev), (∀ x ∈ Elem.postAll ks, v.subj? x = none) →
    assigns (v.cfg f) d (some a) (Elem.evsNAll ks ++ es) =
      (Elem.postAll ks).filterMap (propItem v a) ++ assigns (v.cfg f) d (some a) es
  | [], es, _ => rfl
  | k :: ks, es, h => by
    simp only [Elem.evsNAll, Elem.postAll, List.append_assoc, List.mem_append] at h ⊢
    rw [assigns_in a k _ (fun y hy => h y (.inl hy)), assigns_inAll a ks _ (fun y hy => h y (.inr hy)),
      List.filterMap_append, List.append_assoc]
end

mutual
theorem assigns_out : ∀ (e : Elem) (es : List Ev), (∀ x ∈ e.post, v.subj? x = none) →
    assigns (v.cfg f) d none (e.evsN false ++ es) = assigns (v.cfg f) d none es
  | .mk ds t as x ks, es, h => by
    simp only [Elem.evsN, Elem.post, List.cons_append, List.append_assoc, List.nil_append] at h ⊢
    have h0 : v.subj? (.mk ds t as x ks) = none := h _ (by simp)
    have : assigns (v.cfg f) d none (Ev.start t as :: (Elem.evsNAll ks ++ Ev.fin false t as x :: es)) =
        assigns (v.cfg f) d none (Elem.evsNAll ks ++ Ev.fin false t as x :: es) := by
      rw [assigns, inBase_name, show (v.cfg f).idOf as = v.id? (.mk ds t as x ks) from rfl]
      unfold Voc.subj? at h0
      cases hn : v.name? t with
      | none => rfl
      | some n =>
        rw [show (Elem.mk ds t as x ks).tag = t from rfl, hn] at h0
        simp only [Option.isSome_some, if_true] at h0 ⊢
        rw [h0]
    rw [this, assigns_outAll ks _ (fun y hy => h y (by simp [hy]))]
    rfl
theorem assigns_outAll : ∀ (ks : List Elem) (es : List Ev), (∀ x ∈ Elem.postAll ks, v.subj? x = none) →
    assigns (v.cfg f) d none (Elem.evsNAll ks ++ es) = assigns (v.cfg f) d none es
  | [], es, _ => rfl
  | k :: ks, es, h => by
    simp only [Elem.evsNAll, Elem.postAll, List.append_assoc, List.mem_append] at h ⊢
    rw [assigns_out k _ (fun y hy => h y (.inl hy)), assigns_outAll ks _ (fun y hy => h y (.inr hy))]
end

theorem stmt_item {u : Str} {a : Addr} (hu : d.lookup u = some a) (es : List Elem) :
    (es.filterMap (v.stmt? u)).filterMap (Stmt.item d) = es.filterMap (propItem v a) := by
  rw [List.filterMap_filterMap]
  congr 1
  funext e
  unfold Voc.stmt? propItem
  cases v.id? e with
  | some _ => rfl
  | none => cases v.name? e.tag <;> simp [Stmt.item, hu]

theorem stmt_item_none {u : Str} (hu : d.lookup u = none) (es : List Elem) :
    (es.filterMap (v.stmt? u)).filterMap (Stmt.item d) = [] := by
  rw [List.filterMap_filterMap, List.filterMap_eq_nil_iff]
  intro e _
  unfold Voc.stmt?
  cases v.id? e with
  | some _ => rfl
  | none => cases v.name? e.tag <;> simp [Stmt.item, hu]

mutual
theorem assigns_flat : ∀ (e : Elem) (es : List Ev), v.Flat e →
    assigns (v.cfg f) d none (e.evsN false ++ es) = (v.stmts e).filterMap (Stmt.item d) ++ assigns (v.cfg f) d none es
  | .mk ds t as x ks, es, h => by
    unfold Voc.Flat at h
    unfold Voc.stmts
    simp only [Elem.evsN, List.cons_append, List.append_assoc, List.nil_append]
    have h1 : assigns (v.cfg f) d none (Ev.start t as :: (Elem.evsNAll ks ++ Ev.fin false t as x :: es)) =
        match v.subj? (.mk ds t as x ks) with
        | some u => assigns (v.cfg f) d (d.lookup u) (Elem.evsNAll ks ++ Ev.fin false t as x :: es)
        | none => assigns (v.cfg f) d none (Elem.evsNAll ks ++ Ev.fin false t as x :: es) := by
      rw [assigns, inBase_name, show (v.cfg f).idOf as = v.id? (.mk ds t as x ks) from rfl]
      unfold Voc.subj?
      rw [show (Elem.mk ds t as x ks).tag = t from rfl]
      cases v.name? t with
      | none => rfl
      | some n =>
        simp only [Option.isSome_some, if_true]
        cases v.id? (.mk ds t as x ks) <;> rfl
    rw [h1]
    cases hs : v.subj? (.mk ds t as x ks) with
    | none =>
      rw [hs] at h
      dsimp only at h ⊢
      rw [assigns_flatAll ks _ h]
      rfl
    | some u =>
      rw [hs] at h
      dsimp only at h ⊢
      cases hu : d.lookup u with
      | none =>
        rw [assigns_outAll v f d ks _ h, stmt_item_none v d hu]
        rfl
      | some a =>
        rw [assigns_inAll v f d a ks _ h, stmt_item v d hu]
        congr 1
        unfold Voc.subj? at hs
        rw [show (Elem.mk ds t as x ks).tag = t from rfl] at hs
        rw [assigns, inBase_name, show (v.cfg f).idOf as = v.id? (.mk ds t as x ks) from rfl]
        cases hn : v.name? t with
        | none => rw [hn] at hs; cases hs
        | some n =>
          rw [hn] at hs
          simp only [Option.isSome_some, if_true] at hs ⊢
          rw [hs]
theorem assigns_flatAll : ∀ (ks : List Elem) (es : List Ev), v.FlatAll ks →
    assigns (v.cfg f) d none (Elem.evsNAll ks ++ es) =
      (v.stmtsAll ks).filterMap (Stmt.item d) ++ assigns (v.cfg f) d none es
  | [], es, _ => rfl
  | k :: ks, es, h => by
    unfold Voc.FlatAll at h
    simp only [Elem.evsNAll, Voc.stmtsAll, List.append_assoc, List.filterMap_append]
    rw [assigns_flat k _ h.1, assigns_flatAll ks _ h.2]
end

theorem assigns_doc (t : Elem) (h : v.FlatAll t.kids) :
    assigns (v.cfg f) d none (Elem.tailEvs t) = (v.says t).filterMap (Stmt.item d) := by
  obtain ⟨ds, tag, as, x, ks⟩ := t
  unfold Elem.tailEvs
  rw [assigns_flatAll v f d ks _ h]
  simp [assigns, Voc.says, Elem.kids]

end

/-! ### Classes of identifiers -/

theorem classOf_lastKnown (v : Voc) (f : Nat) (t : Elem) (u : Str) :
    v.classOf t u = lastKnown v.map u ((v.cfg f).objs t.inst) := by
  unfold Voc.classOf
  generalize t.inst = es
  induction es with
  | nil => rfl
  | cons e es ih =>
    rw [List.reverse_cons, List.findSome?_append, ih]
    unfold Cfg.objs
    rw [List.filterMap_cons, inBase_name, idOf_id]
    simp only [List.findSome?_cons, List.findSome?_nil]
    cases hn : v.name? e.tag with
    | none =>
      simp only [Option.isSome_none, Bool.false_eq_true, if_false, Option.bind_none]
      cases lastKnown v.map u _ <;> simp
    | some n =>
      simp only [Option.isSome_some, if_true, Option.bind_some]
      cases hi : v.id? e with
      | none =>
        simp only [Option.map_none]
        cases lastKnown v.map u _ <;> simp
      | some u' =>
        simp only [Option.map_some, lastKnown, local_name v f hn, Option.some.injEq]
        cases lastKnown v.map u _ with
        | some c => rfl
        | none =>
          simp only [Option.none_or]
          split <;> (rename_i h; exact h.symm)

theorem classOf_iff (v : Voc) (t : Elem) (u : Str) (c : Cls) :
    v.classOf t u = some c ↔ v.LastOf v.map t.inst u c := by
  rw [classOf_lastKnown v 0]; exact lastKnown_iff

/-! ### Identifiers and objects after the first pass -/

/-- start_dict holds objects, each under one identifier. -/
structure SdOk (h : Heap) (sd : Dict) : Prop where
  objs : ∀ u a, sd.lookup u = some a → (h.cls a).isSome
  inj : ∀ u u' a, sd.lookup u = some a → sd.lookup u' = some a → u = u'

theorem sdOk_nil (h : Heap) : SdOk h [] := ⟨nofun, nofun⟩

theorem plainAll_dflt : ∀ (c : Cls) {kw : List (Str × Val)} {n : Str}, kw.lookup n = none →
    plainAll kw c n = (dflt c n).map Lit.toVal
  | [], _, _, _ => rfl
  | d :: ds, kw, n, h => by
    have ih := plainAll_dflt ds (kw := kwRest kw d) (n := n) (by
      unfold kwRest
      rw [lookup_filter, h]
      split <;> rfl)
    have hd : dflt (d :: ds) n = (dflt ds n).or (d.init.lookup n) := by
      unfold dflt
      rw [List.reverse_cons, List.findSome?_append]
      simp only [List.findSome?_cons, List.findSome?_nil]
      cases d.init.lookup n <;> rfl
    rw [plainAll, ih, hd]
    unfold plainVal
    cases dflt ds n with
    | some l => rfl
    | none =>
      simp only [Option.map_none, Option.none_or, h]
      rfl

section
variable {v : Voc} {t : Elem} {h : Heap} {sd : Dict} {f : Nat} {s0 s1 : RState}

/-- The first pass on this document. -/
structure Start (v : Voc) (t : Elem) (h : Heap) (sd : Dict) (f : Nat) (s0 s1 : RState) : Prop where
  made : Created v.map ((v.cfg f).objs t.inst) s0 s1
  heap : s0.heap = h
  dict : s0.d = sd
  good : v.Instantiable t
  sd : SdOk h sd
  live : Live h

namespace Start
variable (S : Start v t h sd f s0 s1)
include S

theorem known {u c} (hc : v.classOf t u = some c) : ∃ a, s1.d.lookup u = some a ∧ h.next ≤ a ∧
    s1.heap.cls a = some c ∧ WFCls c ∧ Ident c ∧ (∀ n fd, cellOf c n = some fd → s1.heap.dict a fd = fresh c u n) := by
  have hk := hc
  rw [classOf_lastKnown v f] at hk
  obtain ⟨a, h1, h2, h3, h4, h5⟩ := S.made.new u c hk
  obtain ⟨k1, k2⟩ := S.made.plain u c a hk h1
  obtain ⟨pre, e, post, cls, hi, hds, hl, -⟩ := (classOf_iff v t u c).1 hc
  obtain ⟨W, I⟩ := S.good e (by rw [hi]; simp) cls u c hds hl
  refine ⟨a, h1, by rw [← S.heap]; exact h2, h4, W, I, fun n fd hf => ?_⟩
  unfold cellOf at hf
  unfold fresh
  cases hr : c.findRef n with
  | none =>
    rw [hr] at hf
    dsimp only at hf ⊢
    split at hf
    · rename_i hp
      cases hf
      by_cases hn : n = uuidN
      · subst hn
        rw [if_pos rfl, h5 I]
      · rw [if_neg hn, k1 n hp (findRef_none hr), plainAll_dflt]
        rw [List.lookup_cons, beq_false_of_ne hn]; rfl
    · cases hf
  | some rd =>
    rw [hr] at hf
    dsimp only at hf ⊢
    have hname : rd.name = n := (findRef_mem hr).choose_spec.2.2
    cases hk : rd.kind <;> rw [hk] at hf <;> dsimp only at hf <;> first | cases hf | skip
    · split at hf
      · cases hf
        simp only [oneWay, if_true]
        exact k2 n ⟨rd, by rw [hname]; exact hr, .inl ⟨hk, hname.symm⟩⟩
      · cases hf
    · simp only [oneWay, if_true]
      exact k2 _ ⟨rd, by rw [hname]; exact hr, .inr ⟨hk, by rw [hname]⟩⟩

theorem unknown {u} (hc : v.classOf t u = none) : s1.d.lookup u = sd.lookup u := by
  rw [classOf_lastKnown v f] at hc
  rw [S.made.old u hc, S.dict]

theorem older {a c} (hc : h.cls a = some c) : s1.heap.cls a = some c ∧ a < h.next ∧
    ∀ n, s1.heap.dict a n = h.dict a n := by
  have hlt := lt_next S.live.shape hc
  refine ⟨?_, hlt, fun n => ?_⟩
  · have := S.made.ext.cls a (by rw [S.heap]; exact hlt)
    rw [this, S.heap, hc]
  · rw [S.made.dict a n (by rw [S.heap]; exact hlt), S.heap]

theorem cls (u) : (s1.d.lookup u).bind s1.heap.cls = (v.ctx t h sd).cls u := by
  unfold Voc.ctx
  dsimp only
  cases hc : v.classOf t u with
  | some c =>
    obtain ⟨a, h1, -, h2, -⟩ := S.known hc
    rw [h1]; exact h2
  | none =>
    dsimp only
    rw [S.unknown hc]
    cases hu : sd.lookup u with
    | none => rfl
    | some a =>
      obtain ⟨c, h2⟩ := Option.isSome_iff_exists.1 (S.sd.objs u a hu)
      simp only [Option.bind_some]
      rw [(S.older h2).1, h2]

theorem cls_some {u a} (hu : s1.d.lookup u = some a) : ∃ c, (v.ctx t h sd).cls u = some c ∧ s1.heap.cls a = some c := by
  have := S.cls u
  rw [hu] at this
  simp only [Option.bind_some] at this
  rw [← this]
  cases hc : v.classOf t u with
  | some c =>
    obtain ⟨a', h1, -, h2, -⟩ := S.known hc
    rw [hu] at h1; cases h1
    exact ⟨c, h2, h2⟩
  | none =>
    rw [S.unknown hc] at hu
    obtain ⟨c, h2⟩ := Option.isSome_iff_exists.1 (S.sd.objs u a hu)
    exact ⟨c, (S.older h2).1, (S.older h2).1⟩

theorem lookup {u c} (hu : (v.ctx t h sd).cls u = some c) : ∃ a, s1.d.lookup u = some a ∧ s1.heap.cls a = some c := by
  rw [← S.cls u] at hu
  obtain ⟨a, h1, h2⟩ := Option.bind_eq_some_iff.1 hu
  exact ⟨a, h1, h2⟩

theorem lookup_none {u} (hu : (v.ctx t h sd).cls u = none) : s1.d.lookup u = none := by
  cases hl : s1.d.lookup u with
  | none => rfl
  | some a =>
    obtain ⟨c, h1, -⟩ := S.cls_some hl
    rw [hu] at h1; cases h1

theorem inj {u u' a} (hu : s1.d.lookup u = some a) (hu' : s1.d.lookup u' = some a) : u = u' := by
  cases hc : v.classOf t u with
  | some c =>
    obtain ⟨b, h1, h2, -⟩ := S.known hc
    rw [hu] at h1; cases h1
    cases hc' : v.classOf t u' with
    | some c' =>
      rw [classOf_lastKnown v f] at hc hc'
      exact S.made.inj u u' a (by rw [hc]; rfl) (by rw [hc']; rfl) hu hu'
    | none =>
      rw [S.unknown hc'] at hu'
      obtain ⟨c', h3⟩ := Option.isSome_iff_exists.1 (S.sd.objs u' a hu')
      have := (S.older h3).2.1
      omega
  | none =>
    rw [S.unknown hc] at hu
    obtain ⟨c, h2⟩ := Option.isSome_iff_exists.1 (S.sd.objs u a hu)
    have := (S.older h2).2.1
    cases hc' : v.classOf t u' with
    | some c' =>
      obtain ⟨b, h1, h3, -⟩ := S.known hc'
      rw [hu'] at h1; cases h1
      omega
    | none =>
      rw [S.unknown hc'] at hu'
      exact S.sd.inj u u' a hu hu'

theorem val {u a c n fd} (hu : s1.d.lookup u = some a) (hc : s1.heap.cls a = some c) (hf : cellOf c n = some fd) :
    s1.heap.dict a fd = (v.ctx t h sd).val u n := by
  unfold Voc.ctx
  dsimp only
  cases hk : v.classOf t u with
  | some c' =>
    obtain ⟨b, h1, -, h2, -, -, h3⟩ := S.known hk
    rw [hu] at h1; cases h1
    rw [hc] at h2; cases h2
    exact h3 n fd hf
  | none =>
    rw [S.unknown hk] at hu
    obtain ⟨c', h2⟩ := Option.isSome_iff_exists.1 (S.sd.objs u a hu)
    obtain ⟨k1, -, k2⟩ := S.older h2
    rw [hc] at k1; cases k1
    simp only [hu, Option.bind_some, h2, hf, k2]

theorem endOf {u a} (hu : s1.d.lookup u = some a) (n) : ends s1.heap a n = (v.ctx t h sd).endOf u n := by
  obtain ⟨c, h1, h2⟩ := S.cls_some hu
  unfold ends Ctx.endOf
  rw [h1, h2]
  simp only [Option.bind_some]
  cases c.findRef n <;> rfl

theorem cell {u a c n w} (hu : s1.d.lookup u = some a) (hc : s1.heap.cls a = some c)
    (hp : c.findRef n = none → Pub n) (hv : (v.ctx t h sd).val u n = some w) :
    ∃ fd, cellOf c n = some fd ∧ s1.heap.dict a fd = some w := by
  suffices H : ∃ fd, cellOf c n = some fd by
    obtain ⟨fd, hf⟩ := H
    exact ⟨fd, hf, by rw [S.val hu hc hf, hv]⟩
  unfold Voc.ctx at hv
  dsimp only at hv
  cases hk : v.classOf t u with
  | some c' =>
    obtain ⟨b, h1, -, h2, W, -, -⟩ := S.known hk
    rw [hu] at h1; cases h1
    rw [hc] at h2; cases h2
    rw [hk] at hv
    dsimp only at hv
    unfold fresh at hv
    unfold cellOf
    cases hr : c.findRef n with
    | none => exact ⟨n, by simp [hp hr]⟩
    | some rd =>
      obtain ⟨d, hd, hrd, hname⟩ := findRef_mem hr
      have hpub := W.refs d hd rd hrd
      rw [hname] at hpub
      rw [hr] at hv
      dsimp only at hv ⊢
      cases hkd : rd.kind <;> rw [hkd] at hv <;> simp [oneWay] at hv
      · exact ⟨n, by simp [hpub]⟩
      · exact ⟨priv n, rfl⟩
  | none =>
    rw [hk] at hv
    dsimp only at hv
    rw [S.unknown hk] at hu
    obtain ⟨c', h2⟩ := Option.isSome_iff_exists.1 (S.sd.objs u a hu)
    have k1 := (S.older h2).1
    rw [hc] at k1; cases k1
    simp only [hu, Option.bind_some, h2] at hv
    obtain ⟨fd, h3, -⟩ := Option.bind_eq_some_iff.1 hv
    exact ⟨fd, h3⟩

omit S in
theorem canon_real {s1 : RState} {a c n} (hc : s1.heap.cls a = some c) : canon (alts s1.heap) a n = c.real n := by
  unfold canon alts Cls.real
  simp only [hc, Option.bind_some]
  cases c.findRef n with
  | none => rfl
  | some rd =>
    dsimp only
    by_cases hk : rd.kind = .alias
    · rw [if_pos hk, if_pos hk]
    · rw [if_neg hk, if_neg hk]

theorem real {u a} (hu : s1.d.lookup u = some a) (n) : canon (alts s1.heap) a n = (v.ctx t h sd).real u n := by
  obtain ⟨c, h1, h2⟩ := S.cls_some hu
  rw [canon_real h2]
  unfold Ctx.real
  rw [h1]

/-- Statements that make sense for the identifiers make sense for the objects. -/
theorem sound {st : Stmt} (F : Fits (v.ctx t h sd) st) {it : Item} (hi : st.item s1.d = some it) :
    Sound s1.heap s1.d it := by
  unfold Stmt.item at hi
  obtain ⟨a, hu, rfl⟩ := Option.map_eq_some_iff.1 hi
  obtain ⟨c0, hx, hc0⟩ := S.cls_some hu
  cases F with
  | stray h1 => rw [h1] at hx; cases hx
  | @lit u n x c l h1 h2 h3 h4 h5 =>
    rw [h1] at hx; cases hx
    refine .lit hc0 h2 h3 ?_ (usable_iff.1 h5)
    rw [S.val hu hc0 (cellOf_plain h2 h3), h4]
  | @enum u n x c w r y h1 h2 h3 h4 h5 h6 h7 =>
    rw [h1] at hx; cases hx
    refine .enum (v := w) hc0 h2 h3 ?_ h5 h6 h7
    rw [S.val hu hc0 (cellOf_plain h2 h3), h4]
  | @unknown u n r x c h1 h2 h3 h4 h5 =>
    rw [h1] at hx; cases hx
    refine .unknown hc0 h2 h3 ?_ h5
    rw [S.val hu hc0 (cellOf_plain h2 h3), h4]
  | @dangling u n u' x c h1 h2 h3 h4 =>
    rw [h1] at hx; cases hx
    refine .dangling hc0 ?_ (S.lookup_none h4)
    rcases h2 with ⟨rd, h2, h5⟩ | h2
    · have he : ends s1.heap a (c0.real n) ≠ none := by simp [ends, hc0, h2, h5]
      rw [← canon_real hc0] at he
      cases ha : alts s1.heap a n with
      | none => left; rwa [canon_none ha] at he
      | some q =>
        rw [canon_some ha] at he
        exact .inr (.inl ⟨_, _, rfl, he⟩)
    · obtain ⟨w, hw⟩ := Option.isSome_iff_exists.1 h2
      obtain ⟨fd, h5, h6⟩ := S.cell hu hc0 h3 hw
      exact .inr (.inr ⟨fd, h5, by rw [h6]; rfl⟩)
  | @ref u n u' x c rd c' rd' h1 h2 h3 h4 h5 h6 h7 h8 =>
    rw [h1] at hx; cases hx
    obtain ⟨b, hb, hcb⟩ := S.lookup h5
    refine .ref hb (k := rd.kind) (i := rd.far) (by simp [ends, hc0, h2, h3])
      (by simp [ends, hcb, h6, h7, h8, (opp_regular h3).1]) ?_
    intro c'' rd'' k1 k2
    rw [hc0] at k1; cases k1
    rw [h2] at k2; cases k2
    exact h4
  | @way u n u' x c rd c' w h1 h2 h3 h4 h5 h6 =>
    rw [h1] at hx; cases hx
    obtain ⟨b, hb, hcb⟩ := S.lookup h4
    obtain ⟨fd, h7, h8⟩ := S.cell hu hc0 (fun hh => by rw [h2] at hh; cases hh) h5
    exact .way hb hc0 h2 h7 h8 h6
  | @«alias» u n u' x c rd rda c' rd' h1 h2 h3 h4 h5 h6 h7 h8 h9 =>
    rw [h1] at hx; cases hx
    obtain ⟨b, hb, hcb⟩ := S.lookup h6
    exact .alias hb (alts_iff.2 ⟨c0, rd, hc0, h2, h3, rfl, rfl⟩) (i := rda.inv)
      (by simp [ends, hc0, h4, h5, regular, RefDef.far]) (by simp [ends, hcb, h7, h8, h9, regular])
  | @void u n c rd h1 h2 h3 h4 =>
    rw [h1] at hx; cases hx
    exact .void (k := rd.kind) (i := rd.far) (by simp [ends, hc0, h2, h3]) h4

end Start
end

/-! ### Links between identifiers and between objects -/

theorem item_target {d : Dict} {st : Stmt} {it : Item} (hi : st.item d = some it) :
    d.lookup st.subj = some it.obj ∧ it.name = st.attr ∧ it.res = st.res ∧ it.text = st.text ∧
      it.target = st.target := by
  unfold Stmt.item at hi
  obtain ⟨a, hu, rfl⟩ := Option.map_eq_some_iff.1 hi
  exact ⟨hu, rfl, rfl, rfl, rfl⟩

/-- A statement that gives no partner has no effect on links. -/
theorem stepView_quiet {E : Ends} {A : Alts} {d : Dict} {V : View} {it : Item}
    (no : ∀ b, ¬ Gives E A d it it.obj (canon A it.obj it.name) b) :
    stepView E A d V it = V := by
  unfold stepView
  cases ht : it.target with
  | none => rfl
  | some u =>
    dsimp only
    cases hu : d.lookup u with
    | none => rfl
    | some b =>
      dsimp only
      cases ha : A it.obj it.name with
      | none =>
        dsimp only
        rw [canon_none ha] at no
        cases he : E it.obj it.name with
        | none => rfl
        | some p => exact absurd ⟨rfl, canon_none ha, by rw [he]; rfl, u, ht, hu⟩ (no b)
      | some q =>
        dsimp only
        rw [canon_some ha] at no
        cases he : E it.obj q.1 with
        | none => rfl
        | some p => exact absurd ⟨rfl, canon_some ha, by rw [he]; rfl, u, ht, hu⟩ (no b)

theorem linked_end {h : Heap} {a n b} (l : Linked (view h) a n b) : ∃ k i, ends h a n = some (k, i) := by
  cases he : ends h a n with
  | some p => exact ⟨p.1, p.2, rfl⟩
  | none => rcases l with l | l <;> simp [view, he] at l

theorem linked_lt {h : Heap} (L : Live h) {a n b} (l : Linked (view h) a n b) : a < h.next ∧ b < h.next := by
  obtain ⟨k, i, e⟩ := linked_end l
  obtain ⟨c, rd, hc, -⟩ := ends_find e
  obtain ⟨c', rd', hc', -⟩ := ends_find (linked_symm L.cons e l).1
  exact ⟨lt_next L.shape hc, lt_next L.shape hc'⟩

theorem linked_one {h : Heap} {a n k i y} (e : ends h a n = some (k, i)) (hk : k.isMany = false)
    (l : Linked (view h) a n y) : (view h).one a n = some y := by
  rcases l with l | l
  · exact l
  · rw [view_many_one e hk] at l; cases l

namespace Start
variable {v : Voc} {t : Elem} {h : Heap} {sd : Dict} {f : Nat} {s0 s1 : RState}
variable (S : Start v t h sd f s0 s1)
include S

theorem viewEq : view s1.heap = view h := by rw [S.made.view, S.heap]

theorem gives {st : Stmt} {it : Item} (hi : st.item s1.d = some it) {a n b} :
    Gives (ends s1.heap) (alts s1.heap) s1.d it a n b ↔
      ∃ u u', s1.d.lookup u = some a ∧ s1.d.lookup u' = some b ∧ (v.ctx t h sd).Gives st u n u' := by
  obtain ⟨h1, h2, -, -, h5⟩ := item_target hi
  constructor
  · rintro ⟨rfl, hn, hs, u', ht, hu'⟩
    obtain ⟨c', hc', -⟩ := S.cls_some hu'
    rw [S.endOf h1] at hs
    rw [S.real h1, h2] at hn
    exact ⟨st.subj, u', h1, hu', rfl, hn, by rw [← h5]; exact ht, hs, by rw [hc']; rfl⟩
  · rintro ⟨u, u', hu, hu', rfl, hn, ht, hs, -⟩
    rw [hu] at h1; cases h1
    exact ⟨rfl, by rw [S.real hu, h2]; exact hn, by rw [S.endOf hu]; exact hs, u', by rw [h5]; exact ht, hu'⟩

/-- The stated partner has an object. -/
theorem gives_lookup {st : Stmt} {u n u'} (g : (v.ctx t h sd).Gives st u n u') :
    ∃ it a b, st.item s1.d = some it ∧ s1.d.lookup u = some a ∧ s1.d.lookup u' = some b ∧
      Gives (ends s1.heap) (alts s1.heap) s1.d it a n b := by
  obtain ⟨rfl, -, ht, hs, hc⟩ := id g
  obtain ⟨c', hc⟩ := Option.isSome_iff_exists.1 hc
  obtain ⟨b, hb, -⟩ := S.lookup hc
  have : ∃ c, (v.ctx t h sd).cls st.subj = some c := by
    unfold Ctx.endOf at hs
    cases hx : (v.ctx t h sd).cls st.subj with
    | none => rw [hx] at hs; cases hs
    | some c => exact ⟨c, rfl⟩
  obtain ⟨c, hx⟩ := this
  obtain ⟨a, ha, -⟩ := S.lookup hx
  have hi : st.item s1.d = some ⟨a, st.attr, st.res, st.text⟩ := by unfold Stmt.item; rw [ha]; rfl
  exact ⟨_, a, b, hi, ha, hb, (S.gives hi).2 ⟨_, _, ha, hb, g⟩⟩

theorem said {ss : List Stmt} {u n u' a b} (hu : s1.d.lookup u = some a) (hu' : s1.d.lookup u' = some b) :
    Cim.Said (ends s1.heap) (alts s1.heap) s1.d (ss.filterMap (Stmt.item s1.d)) a n b ↔ (v.ctx t h sd).Said ss u n u' := by
  unfold Cim.Said Ctx.Said
  constructor
  · rintro (⟨it, hit, g⟩ | ⟨it, hit, k, i, e, g⟩)
    · obtain ⟨st, hst, hi⟩ := List.mem_filterMap.1 hit
      obtain ⟨w, w', hw, hw', g⟩ := (S.gives hi).1 g
      cases S.inj hu hw; cases S.inj hu' hw'
      exact .inl ⟨st, hst, g⟩
    · obtain ⟨st, hst, hi⟩ := List.mem_filterMap.1 hit
      obtain ⟨w, w', hw, hw', g⟩ := (S.gives hi).1 g
      cases S.inj hu hw'; cases S.inj hu' hw
      exact .inr ⟨st, hst, k, i, by rw [← S.endOf hu']; exact e, g⟩
  · rintro (⟨st, hst, g⟩ | ⟨st, hst, k, i, e, g⟩)
    · obtain ⟨it, a', b', hi, ha, hb, g⟩ := S.gives_lookup g
      rw [hu] at ha; cases ha
      rw [hu'] at hb; cases hb
      exact .inl ⟨it, List.mem_filterMap.2 ⟨st, hst, hi⟩, g⟩
    · obtain ⟨it, a', b', hi, ha, hb, g⟩ := S.gives_lookup g
      rw [hu'] at ha; cases ha
      rw [hu] at hb; cases hb
      exact .inr ⟨it, List.mem_filterMap.2 ⟨st, hst, hi⟩, k, i, by rw [S.endOf hu']; exact e, g⟩

/-- Only objects in the dict are spoken about. -/
theorem said_lookup {ss : List Stmt} {a n b}
    (hs : Cim.Said (ends s1.heap) (alts s1.heap) s1.d (ss.filterMap (Stmt.item s1.d)) a n b) :
    ∃ u u', s1.d.lookup u = some a ∧ s1.d.lookup u' = some b := by
  rcases hs with ⟨it, hit, g⟩ | ⟨it, hit, k, i, e, g⟩
  · obtain ⟨st, hst, hi⟩ := List.mem_filterMap.1 hit
    obtain ⟨w, w', hw, hw', g⟩ := (S.gives hi).1 g
    exact ⟨w, w', hw, hw'⟩
  · obtain ⟨st, hst, hi⟩ := List.mem_filterMap.1 hit
    obtain ⟨w, w', hw, hw', g⟩ := (S.gives hi).1 g
    exact ⟨w', w, hw', hw⟩

theorem small {u a} (hu : s1.d.lookup u = some a) (ha : a < h.next) :
    v.classOf t u = none ∧ sd.lookup u = some a := by
  cases hc : v.classOf t u with
  | some c =>
    obtain ⟨b, h1, h2, -⟩ := S.known hc
    rw [hu] at h1; cases h1
    omega
  | none => exact ⟨rfl, by rw [← S.unknown hc]; exact hu⟩

theorem before {u n u' a b} (hu : s1.d.lookup u = some a) (hu' : s1.d.lookup u' = some b) :
    Linked (view s1.heap) a n b ↔ v.before t h sd u n u' := by
  rw [S.viewEq]
  constructor
  · intro l
    obtain ⟨h1, h2⟩ := linked_lt S.live l
    obtain ⟨k1, k2⟩ := S.small hu h1
    obtain ⟨k3, k4⟩ := S.small hu' h2
    exact ⟨k1, k3, a, b, k2, k4, l⟩
  · rintro ⟨k1, k2, a', b', k3, k4, l⟩
    rw [S.unknown k1, k3] at hu; cases hu
    rw [S.unknown k2, k4] at hu'; cases hu'
    exact l

theorem only {ss : List Stmt} {u n u' a b} (O : v.Only t h sd ss u n u') (hu : s1.d.lookup u = some a)
    (hu' : s1.d.lookup u' = some b) (y : Addr)
    (hl : Linked (view s1.heap) a n y ∨ Cim.Said (ends s1.heap) (alts s1.heap) s1.d (ss.filterMap (Stmt.item s1.d)) a n y) : y = b := by
  rcases hl with l | s
  · rw [S.viewEq] at l
    obtain ⟨k1, k2⟩ := S.small hu (linked_lt S.live l).1
    obtain ⟨k3, k4⟩ := O.old k1 a y k2 l
    rw [S.unknown k3, k4] at hu'
    exact Option.some.inj hu'
  · obtain ⟨w, w', hw, hw'⟩ := S.said_lookup s
    rw [S.said hu hw'] at s
    cases O.said w' s
    rw [hu'] at hw'
    exact (Option.some.inj hw').symm

theorem keeps {st : Stmt} {it : Item} (hi : st.item s1.d = some it) (o : Option Addr) :
    keepsA (alts s1.heap) it o = (v.ctx t h sd).keeps s1.heap.cls st.subj st.attr o := by
  obtain ⟨h1, h2, -, -, -⟩ := item_target hi
  obtain ⟨c, hc, hc'⟩ := S.cls_some h1
  unfold keepsA Ctx.keeps alts
  rw [hc, hc', h2]
  simp only [Option.bind_some]
  cases c.findRef st.attr with
  | none => rfl
  | some rd =>
    dsimp only
    by_cases hk : rd.kind = .alias
    · rw [if_pos hk, if_pos hk]
    · rw [if_neg hk, if_neg hk]

omit S in
theorem endOf_same {X : Ctx} {u n p} (e : X.endOf u n = some p) : X.real u n = n := by
  unfold Ctx.endOf at e
  obtain ⟨c, hc, e⟩ := Option.bind_eq_some_iff.1 e
  obtain ⟨rd, hf, e⟩ := Option.bind_eq_some_iff.1 e
  unfold Ctx.real Cls.real
  rw [hc]
  dsimp only
  rw [hf]
  dsimp only
  rw [if_neg]
  intro hk
  rw [hk] at e
  cases e

/-- Every step of the list of statements refines a step of the values read off a view. -/
theorem fold_view {α} (f : View → α) (g : α → Stmt → α) : ∀ (ss : List Stmt) {V : View},
    Consistent (ends s1.heap) V → Matching (ends s1.heap) (alts s1.heap) s1.d (ss.filterMap (Stmt.item s1.d)) →
    (∀ st ∈ ss, st.item s1.d = none → ∀ x, g x st = x) →
    (∀ st ∈ ss, ∀ it, st.item s1.d = some it →
      (∀ b, ¬ Cim.Gives (ends s1.heap) (alts s1.heap) s1.d it it.obj (canon (alts s1.heap) it.obj it.name) b) →
      ∀ x, g x st = x) →
    (∀ st ∈ ss, ∀ it u b k j V, st.item s1.d = some it → Consistent (ends s1.heap) V →
      (alts s1.heap it.obj it.name ≠ none → k = .one2many) → it.target = some u → s1.d.lookup u = some b →
      ends s1.heap it.obj (canon (alts s1.heap) it.obj it.name) = some (k, j) →
      ends s1.heap b j = some (k.opp, canon (alts s1.heap) it.obj it.name) →
      f (stepView (ends s1.heap) (alts s1.heap) s1.d V it) = g (f V) st) →
    f ((ss.filterMap (Stmt.item s1.d)).foldl (stepView (ends s1.heap) (alts s1.heap) s1.d) V) = ss.foldl g (f V)
  | [], _, _, _, _, _, _ => rfl
  | st :: ss, V, C, M, g1, g2, g3 => by
    have ih := fun {V'} (C' : Consistent (ends s1.heap) V') M' => fold_view f g ss C' M' (fun x h => g1 x (.tail _ h))
      (fun x h => g2 x (.tail _ h)) (fun x h => g3 x (.tail _ h))
    rw [List.filterMap_cons] at M ⊢
    rw [List.foldl_cons]
    cases hi : st.item s1.d with
    | none =>
      rw [hi] at M
      rw [g1 st (.head _) hi]
      exact ih C M
    | some it =>
      rw [hi] at M
      dsimp only at M ⊢
      have M' : Matching (ends s1.heap) (alts s1.heap) s1.d (ss.filterMap (Stmt.item s1.d)) :=
        fun it' h => M it' (.tail _ h)
      rw [List.foldl_cons]
      by_cases hg : ∃ b, Cim.Gives (ends s1.heap) (alts s1.heap) s1.d it it.obj (canon (alts s1.heap) it.obj it.name) b
      · obtain ⟨b, hg⟩ := hg
        obtain ⟨-, -, hs, u, ht, hu⟩ := id hg
        obtain ⟨⟨k, j⟩, e⟩ := Option.isSome_iff_exists.1 hs
        obtain ⟨eb, hA⟩ := M it (.head _) _ _ _ _ _ hg e
        have T := step_local C (fun a n k i e => ⟨ends_regular e, S.made.live.norefl a n k i e⟩) hA ht hu e eb
        rw [ih T.cons M', g3 st (.head _) it u b k j V hi C hA ht hu e eb]
      · rw [g2 st (.head _) it hi (fun b hb => hg ⟨b, hb⟩), stepView_quiet (fun b hb => hg ⟨b, hb⟩)]
        exact ih C M'

/-- A statement about a reference that gives no partner. -/
theorem no_gives {st : Stmt} {it : Item} (hi : st.item s1.d = some it)
    (no : ∀ b, ¬ Cim.Gives (ends s1.heap) (alts s1.heap) s1.d it it.obj (canon (alts s1.heap) it.obj it.name) b)
    {w b} (ht : st.target = some w) (hw : s1.d.lookup w = some b) :
    (v.ctx t h sd).endOf st.subj ((v.ctx t h sd).real st.subj st.attr) = none := by
  obtain ⟨h1, h2, -, -, h5⟩ := item_target hi
  cases he : (v.ctx t h sd).endOf st.subj ((v.ctx t h sd).real st.subj st.attr) with
  | none => rfl
  | some p =>
    refine absurd ⟨rfl, rfl, ?_, w, by rw [h5]; exact ht, hw⟩ (no b)
    rw [S.endOf h1, S.real h1, h2, he]; rfl

theorem toOne_fold {ss : List Stmt} {V : View} (C : Consistent (ends s1.heap) V)
    (M : Matching (ends s1.heap) (alts s1.heap) s1.d (ss.filterMap (Stmt.item s1.d)))
    {u a n i} (hu : s1.d.lookup u = some a) (e : ends s1.heap a n = some (.one2many, i)) :
    ((ss.filterMap (Stmt.item s1.d)).foldl (stepView (ends s1.heap) (alts s1.heap) s1.d) V).one a n =
      ss.foldl ((v.ctx t h sd).toOne (fun u => s1.d.lookup u) s1.heap.cls u n i) (V.one a n) := by
  have e' : (v.ctx t h sd).endOf u n = some (.one2many, i) := by rw [← S.endOf hu]; exact e
  refine S.fold_view (fun V => V.one a n) _ ss C M ?_ ?_ ?_
  · intro st _ hi o
    have hx : s1.d.lookup st.subj = none := by
      unfold Stmt.item at hi
      exact Option.map_eq_none_iff.1 hi
    unfold Ctx.toOne
    cases st.target with
    | none => rfl
    | some w =>
      dsimp only
      rw [if_neg (by rintro ⟨rfl, -⟩; rw [hx] at hu; cases hu), hx]
      split <;> rfl
  · intro st _ it hi no o
    unfold Ctx.toOne
    cases ht : st.target with
    | none => rfl
    | some w =>
      dsimp only
      by_cases h1 : st.subj = u ∧ (v.ctx t h sd).real u st.attr = n
      · rw [if_pos h1]
        obtain ⟨rfl, h1⟩ := h1
        cases hw : s1.d.lookup w with
        | none => rfl
        | some b =>
          have := S.no_gives hi no ht hw
          rw [h1, e'] at this; cases this
      · rw [if_neg h1]
        by_cases h2 : w = u ∧ (v.ctx t h sd).real st.subj st.attr = i ∧
            (v.ctx t h sd).endOf st.subj i = some (.many2one, n)
        · obtain ⟨rfl, h2, h3⟩ := h2
          have := S.no_gives hi no ht hu
          rw [h2, h3] at this; cases this
        · rw [if_neg h2]
  · intro st _ it w b k j V hi C hA ht hw ek eb
    obtain ⟨h1, h2, -, -, h5⟩ := item_target hi
    rw [step_toOne C (fun a n k i e => ⟨ends_regular e, S.made.live.norefl a n k i e⟩) hA ht hw ek eb e,
      S.real h1, h2, S.keeps hi, S.endOf h1]
    unfold Ctx.toOne
    rw [h5] at ht
    rw [ht]
    dsimp only
    have i1 : it.obj = a ↔ st.subj = u := by
      constructor
      · rintro rfl; exact S.inj h1 hu
      · rintro rfl; rw [hu] at h1; cases h1; rfl
    have i2 : b = a ↔ w = u := by
      constructor
      · rintro rfl; exact S.inj hw hu
      · rintro rfl; rw [hu] at hw; cases hw; rfl
    rw [hw, h1]
    simp only [i1, i2]
    by_cases h1 : st.subj = u
    · subst h1; rfl
    · simp only [h1, false_and, if_false]

theorem pairs_fold {ss : List Stmt} {V : View} (C : Consistent (ends s1.heap) V)
    (M : Matching (ends s1.heap) (alts s1.heap) s1.d (ss.filterMap (Stmt.item s1.d))) :
    (v.ctx t h sd).pairs (fun u => s1.d.lookup u)
      ((ss.filterMap (Stmt.item s1.d)).foldl (stepView (ends s1.heap) (alts s1.heap) s1.d) V) =
      ss.foldl ((v.ctx t h sd).pair (fun u => s1.d.lookup u)) ((v.ctx t h sd).pairs (fun u => s1.d.lookup u) V) := by
  refine S.fold_view ((v.ctx t h sd).pairs (fun u => s1.d.lookup u)) _ ss C M ?_ ?_ ?_
  · intro st _ hi cur
    have hx : s1.d.lookup st.subj = none := by
      unfold Stmt.item at hi
      exact Option.map_eq_none_iff.1 hi
    funext u n
    unfold Ctx.pair
    split
    · cases st.target <;> simp only [hx, Option.bind_none, Option.bind_some]
    · rfl
  · intro st _ it hi no cur
    funext u n
    unfold Ctx.pair
    split
    · rename_i i he
      cases ht : st.target with
      | none => rfl
      | some w =>
        cases hw : s1.d.lookup w with
        | none =>
          simp only [Option.bind_some, hw, Option.map_none]
          cases s1.d.lookup st.subj <;> rfl
        | some b =>
          have := S.no_gives hi no ht hw
          rw [endOf_same he, he] at this; cases this
    · rfl
  · intro st _ it w b k j V hi C hA ht hw ek eb
    obtain ⟨h1, h2, -, -, h5⟩ := item_target hi
    funext u n
    rw [h5] at ht
    rw [S.real h1, h2] at eb
    rw [S.real h1, S.endOf h1, h2] at ek
    rw [S.endOf hw] at eb
    have reg : ∀ a n k i, ends s1.heap a n = some (k, i) → regular k = true ∧ i ≠ n :=
      fun a n k i e => ⟨ends_regular e, S.made.live.norefl a n k i e⟩
    have step := fun {x r i} (ex : ends s1.heap x r = some (.one2one, i)) =>
      step_o2o C reg hA (by rw [h5]; exact ht) hw (by rw [S.real h1, S.endOf h1, h2]; exact ek)
        (by rw [S.real h1, h2, S.endOf hw]; exact eb) ex
    by_cases hk : k = .one2one
    · subst hk
      have eb : (v.ctx t h sd).endOf w j = some (.one2one, (v.ctx t h sd).real st.subj st.attr) := eb
      have hr : (v.ctx t h sd).real st.subj st.attr = st.attr := by
        rw [← S.real h1, ← h2]
        cases ha : alts s1.heap it.obj it.name with
        | none => exact canon_none ha
        | some q => cases hA (by rw [ha]; simp)
      rw [hr] at ek eb
      unfold Ctx.pair
      rw [ek]
      simp only [ht, Option.bind_some, h1, hw, Option.map_some]
      have c0 : (v.ctx t h sd).pairs (fun u => s1.d.lookup u) V st.subj st.attr = V.one it.obj it.name := by
        unfold Ctx.pairs
        rw [ek]
        simp only [h1, Option.bind_some, h2]
      rw [c0]
      by_cases hp : ∃ i a, (v.ctx t h sd).endOf u n = some (.one2one, i) ∧ s1.d.lookup u = some a
      · obtain ⟨i, a, he, hu⟩ := hp
        have l0 : ∀ V, (v.ctx t h sd).pairs (fun u => s1.d.lookup u) V u n = V.one a n := by
          intro V
          unfold Ctx.pairs
          rw [he]
          simp only [hu, Option.bind_some]
        rw [l0, l0, step (x := a) (r := n) (i := i) (by rw [S.endOf hu]; exact he), if_pos rfl, he]
        have i1 : a = it.obj ↔ u = st.subj := by
          constructor
          · rintro rfl; exact S.inj hu h1
          · rintro rfl; rw [hu] at h1; cases h1; rfl
        have i2 : a = b ↔ u = w := by
          constructor
          · rintro rfl; exact S.inj hu hw
          · rintro rfl; rw [hu] at hw; cases hw; rfl
        simp only [i1, i2, h2, Option.some.injEq, Prod.mk.injEq, true_and]
      · have l0 : ∀ V, (v.ctx t h sd).pairs (fun u => s1.d.lookup u) V u n = none := by
          intro V
          unfold Ctx.pairs
          split
          · rename_i i he
            cases hu : s1.d.lookup u with
            | none => simp only [hu, Option.bind_none]
            | some a => exact absurd ⟨i, a, he, hu⟩ hp
          · rfl
        rw [l0, l0]
        rw [if_neg (c := u = st.subj ∧ n = st.attr) (by rintro ⟨rfl, rfl⟩; exact hp ⟨_, _, ek, h1⟩),
          if_neg (c := u = w ∧ n = j) (by rintro ⟨rfl, rfl⟩; exact hp ⟨_, _, eb, hw⟩)]
        split
        · rfl
        · split <;> rfl
    · have hq : ∀ V, (v.ctx t h sd).pair (fun u => s1.d.lookup u)
          ((v.ctx t h sd).pairs (fun u => s1.d.lookup u) V) st u n =
          (v.ctx t h sd).pairs (fun u => s1.d.lookup u) V u n := by
        intro V
        unfold Ctx.pair
        split
        · rename_i i he
          rw [endOf_same he, he] at ek
          cases ek
          exact absurd rfl hk
        · rfl
      rw [hq]
      unfold Ctx.pairs
      split
      · rename_i i he
        cases hu : s1.d.lookup u with
        | none => simp only [hu, Option.bind_none]
        | some a =>
          simp only [hu, Option.bind_some]
          rw [step (x := a) (r := n) (i := i) (by rw [S.endOf hu]; exact he), if_neg hk]
      · rfl

theorem toMany_fold {ss : List Stmt} {V : View} (C : Consistent (ends s1.heap) V)
    (M : Matching (ends s1.heap) (alts s1.heap) s1.d (ss.filterMap (Stmt.item s1.d)))
    {u a n i} (hu : s1.d.lookup u = some a) (e : ends s1.heap a n = some (.many2many, i)) :
    ((ss.filterMap (Stmt.item s1.d)).foldl (stepView (ends s1.heap) (alts s1.heap) s1.d) V).many a n =
      ss.foldl ((v.ctx t h sd).toMany (fun u => s1.d.lookup u) u n i) (V.many a n) := by
  have e' : (v.ctx t h sd).endOf u n = some (.many2many, i) := by rw [← S.endOf hu]; exact e
  refine S.fold_view (fun V => V.many a n) _ ss C M ?_ ?_ ?_
  · intro st _ hi o
    have hx : s1.d.lookup st.subj = none := by
      unfold Stmt.item at hi
      exact Option.map_eq_none_iff.1 hi
    unfold Ctx.toMany
    cases st.target with
    | none => rfl
    | some w =>
      dsimp only
      rw [if_neg (by rintro ⟨rfl, -⟩; rw [hx] at hu; cases hu), hx]
      split <;> rfl
  · intro st _ it hi no o
    unfold Ctx.toMany
    cases ht : st.target with
    | none => rfl
    | some w =>
      dsimp only
      by_cases h1 : st.subj = u ∧ (v.ctx t h sd).real u st.attr = n
      · rw [if_pos h1]
        obtain ⟨rfl, h1⟩ := h1
        cases hw : s1.d.lookup w with
        | none => rfl
        | some b =>
          have := S.no_gives hi no ht hw
          rw [h1, e'] at this; cases this
      · rw [if_neg h1]
        by_cases h2 : w = u ∧ (v.ctx t h sd).real st.subj st.attr = i ∧
            (v.ctx t h sd).endOf st.subj i = some (.many2many, n)
        · obtain ⟨rfl, h2, h3⟩ := h2
          have := S.no_gives hi no ht hu
          rw [h2, h3] at this; cases this
        · rw [if_neg h2]
  · intro st _ it w b k j V hi C hA ht hw ek eb
    obtain ⟨h1, h2, -, -, h5⟩ := item_target hi
    rw [step_m2m C (fun a n k i e => ⟨ends_regular e, S.made.live.norefl a n k i e⟩) hA ht hw ek eb e,
      S.real h1, h2, S.endOf h1]
    unfold Ctx.toMany
    rw [h5] at ht
    rw [ht]
    dsimp only
    have i1 : it.obj = a ↔ st.subj = u := by
      constructor
      · rintro rfl; exact S.inj h1 hu
      · rintro rfl; rw [hu] at h1; cases h1; rfl
    have i2 : b = a ↔ w = u := by
      constructor
      · rintro rfl; exact S.inj hw hu
      · rintro rfl; rw [hu] at hw; cases hw; rfl
    rw [hw, h1]
    simp only [i1, i2]
    by_cases h1 : st.subj = u
    · subst h1; rfl
    · simp only [h1, false_and, if_false]

theorem members_fold {u a n i} : ∀ (ss : List Stmt) {V : View}, Consistent (ends s1.heap) V →
    Matching (ends s1.heap) (alts s1.heap) s1.d (ss.filterMap (Stmt.item s1.d)) →
    s1.d.lookup u = some a → ends s1.heap a n = some (.many2one, i) → ∀ {cur : Str → Option Addr},
    (∀ w b, s1.d.lookup w = some b → ends s1.heap b i = some (.one2many, n) → cur w = V.one b i) →
    ((ss.filterMap (Stmt.item s1.d)).foldl (stepView (ends s1.heap) (alts s1.heap) s1.d) V).many a n =
      (v.ctx t h sd).members (fun u => s1.d.lookup u) s1.heap.cls u n i cur (V.many a n) ss
  | [], _, _, _, _, _, _, _ => rfl
  | st :: ss, V, C, M, hu, e, cur, hcur => by
    have reg : ∀ a n k i, ends s1.heap a n = some (k, i) → regular k = true ∧ i ≠ n :=
      fun a n k i e => ⟨ends_regular e, S.made.live.norefl a n k i e⟩
    unfold Ctx.members
    rw [List.filterMap_cons] at M ⊢
    have M1 : Matching (ends s1.heap) (alts s1.heap) s1.d ([st].filterMap (Stmt.item s1.d)) := by
      intro it hit
      refine M it ?_
      rw [List.filterMap_cons, List.filterMap_nil] at hit
      cases hi : st.item s1.d with
      | none => rw [hi] at hit; cases hit
      | some it' =>
        rw [hi] at hit
        rw [List.mem_singleton.1 hit]
        exact .head _
    have one : ∀ w b, s1.d.lookup w = some b → ends s1.heap b i = some (.one2many, n) →
        (v.ctx t h sd).toOne (fun u => s1.d.lookup u) s1.heap.cls w i n (cur w) st =
          (([st].filterMap (Stmt.item s1.d)).foldl (stepView (ends s1.heap) (alts s1.heap) s1.d) V).one b i := by
      intro w b hw hb
      rw [S.toOne_fold C M1 hw hb, ← hcur w b hw hb]
      rfl
    cases hi : st.item s1.d with
    | none =>
      rw [hi] at M
      have hx : s1.d.lookup st.subj = none := by
        unfold Stmt.item at hi
        exact Option.map_eq_none_iff.1 hi
      have hm : (v.ctx t h sd).moved (fun u => s1.d.lookup u) s1.heap.cls u n i cur (V.many a n) st = V.many a n := by
        unfold Ctx.moved
        cases st.target with
        | none => rfl
        | some w => simp only [Option.bind_some, hx, Option.bind_none]
      rw [hm]
      refine members_fold ss C M hu e (fun w b hw hb => ?_)
      rw [one w b hw hb, List.filterMap_cons, hi]
      rfl
    | some it =>
      rw [hi] at M
      dsimp only at M ⊢
      have M' : Matching (ends s1.heap) (alts s1.heap) s1.d (ss.filterMap (Stmt.item s1.d)) :=
        fun it' h => M it' (.tail _ h)
      rw [List.foldl_cons]
      obtain ⟨h1, h2, -, -, h5⟩ := item_target hi
      have go : ∀ {V'}, stepView (ends s1.heap) (alts s1.heap) s1.d V it = V' → Consistent (ends s1.heap) V' →
          V'.many a n = (v.ctx t h sd).moved (fun u => s1.d.lookup u) s1.heap.cls u n i cur (V.many a n) st →
          ((ss.filterMap (Stmt.item s1.d)).foldl (stepView (ends s1.heap) (alts s1.heap) s1.d)
            (stepView (ends s1.heap) (alts s1.heap) s1.d V it)).many a n =
          (v.ctx t h sd).members (fun u => s1.d.lookup u) s1.heap.cls u n i
            (fun w => (v.ctx t h sd).toOne (fun u => s1.d.lookup u) s1.heap.cls w i n (cur w) st)
            ((v.ctx t h sd).moved (fun u => s1.d.lookup u) s1.heap.cls u n i cur (V.many a n) st) ss := by
        rintro V' rfl C' hm
        rw [← hm]
        refine members_fold ss C' M' hu e (fun w b hw hb => ?_)
        rw [one w b hw hb, List.filterMap_cons, hi]
        rfl
      by_cases hg : ∃ b, Cim.Gives (ends s1.heap) (alts s1.heap) s1.d it it.obj (canon (alts s1.heap) it.obj it.name) b
      · obtain ⟨b, hg⟩ := hg
        obtain ⟨-, -, hs, w, ht, hw⟩ := id hg
        obtain ⟨⟨k, j⟩, ek⟩ := Option.isSome_iff_exists.1 hs
        obtain ⟨eb, hA⟩ := M it (.head _) _ _ _ _ _ hg ek
        have T := step_local C reg hA ht hw ek eb
        refine go rfl T.cons ?_
        rw [step_m2o C reg hA ht hw ek eb e, S.keeps hi, S.real h1, h2, S.endOf h1, S.endOf h1]
        unfold Ctx.moved
        rw [h5] at ht
        rw [ht]
        simp only [Option.bind_some, h1, hw, Option.map_some]
        have i1 : it.obj = a ↔ st.subj = u := by
          constructor
          · rintro rfl; exact S.inj h1 hu
          · rintro rfl; rw [hu] at h1; cases h1; rfl
        have i2 : b = a ↔ w = u := by
          constructor
          · rintro rfl; exact S.inj hw hu
          · rintro rfl; rw [hu] at hw; cases hw; rfl
        simp only [i1, i2]
        by_cases hc : (v.ctx t h sd).real st.subj st.attr = i ∧ (v.ctx t h sd).endOf st.subj i = some (.one2many, n)
        · rw [if_pos hc, if_pos hc, hcur st.subj it.obj h1 (by rw [S.endOf h1]; exact hc.2)]
        · rw [if_neg hc, if_neg hc]
      · refine go (stepView_quiet (fun b hb => hg ⟨b, hb⟩)) C ?_
        unfold Ctx.moved
        cases ht : st.target with
        | none => rfl
        | some w =>
          simp only [Option.bind_some, h1]
          cases hw : s1.d.lookup w with
          | none => rfl
          | some b =>
            have := S.no_gives hi (fun b hb => hg ⟨b, hb⟩) ht hw
            simp only [Option.map_some]
            rw [if_neg (by rintro ⟨h3, h4⟩; rw [h3, h4] at this; cases this),
              if_neg (by rintro ⟨h3, h4⟩; rw [h3, h4] at this; cases this)]

end Start

/-! ### The call -/

theorem attr_cell {h : Heap} {a c n f v} (hc : h.cls a = some c) (hf : cellOf c n = some f)
    (hv : h.dict a f = some v) : attr h a n = some v := by
  unfold attr
  rw [getAttr_cell hc hf hv]

theorem attr_congr {h h' : Heap} {x c n f} (hc : h.cls x = some c) (hc' : h'.cls x = some c) (hf : cellOf c n = some f)
    (hd : h'.dict x f = h.dict x f) : attr h' x n = attr h x n := by
  unfold cellOf at hf
  unfold attr getAttr
  rw [hc, hc']
  dsimp only
  cases hr : c.findRef n with
  | none =>
    rw [hr] at hf
    dsimp only at hf ⊢
    split at hf
    · cases hf
      rw [hd]
      cases h.dict x n with
      | some v => rfl
      | none => dsimp only; cases classLevel c n <;> rfl
    · cases hf
  | some rd =>
    rw [hr] at hf
    dsimp only at hf ⊢
    cases hk : rd.kind <;> rw [hk] at hf <;> dsimp only at hf ⊢ <;> first | cases hf | skip
    · split at hf
      · cases hf; rw [hd]; cases h.dict x n <;> rfl
      · cases hf
    · unfold rawGet
      dsimp only
      rw [hd]
      cases h.dict x (priv n) <;> rfl

theorem stepVal_apply {d : Dict} {st : Stmt} {it : Item} (hi : st.item d = some it) (v : Val) :
    stepVal d v it = Stmt.apply (fun u => d.lookup u) v st := by
  obtain ⟨-, -, h3, h4, h5⟩ := item_target hi
  unfold stepVal Stmt.apply
  rw [h5, h3, h4]
  cases hr : st.res with
  | none =>
    have : st.target = none := by unfold Stmt.target; rw [hr]
    rw [this]
    dsimp only
    cases litOf v <;> rfl
  | some r => cases st.target <;> rfl

theorem about_items {d : Dict} {u a n} (hu : d.lookup u = some a)
    (inj : ∀ u', d.lookup u' = some a → u' = u) (ss : List Stmt) (w : Val) :
    (about a n (ss.filterMap (Stmt.item d))).foldl (stepVal d) w =
      (aboutId u n ss).foldl (Stmt.apply (fun u => d.lookup u)) w := by
  induction ss generalizing w with
  | nil => rfl
  | cons st ss ih =>
    unfold about aboutId at *
    rw [List.filterMap_cons, List.filter_cons]
    cases hi : st.item d with
    | none =>
      dsimp only
      have : st.subj ≠ u := by
        rintro rfl
        unfold Stmt.item at hi
        rw [hu] at hi; cases hi
      rw [if_neg (by simp [this])]
      exact ih w
    | some it =>
      dsimp only
      obtain ⟨h1, h2, -⟩ := item_target hi
      have hiff : (it.obj = a ∧ it.name = n) ↔ (st.subj = u ∧ st.attr = n) := by
        rw [h2]
        refine and_congr ⟨fun hh => inj _ (by rw [← hh]; exact h1), fun hh => ?_⟩ Iff.rfl
        rw [hh, hu] at h1
        exact (Option.some.inj h1).symm
      rw [List.filter_cons]
      by_cases hb : st.subj = u ∧ st.attr = n
      · rw [if_pos (by simpa using hiff.2 hb), if_pos (by simpa using hb), List.foldl_cons, List.foldl_cons,
          stepVal_apply hi]
        exact ih _
      · rw [if_neg (by simpa using fun hh => (not_and.1 (fun hx => hb (hiff.1 hx)) hh)), if_neg (by simpa using hb)]
        exact ih w

/-- What has been read is in the heap and in the dictionary. -/
theorem _root_.Verif.Spec.Reads.of_same {v : Voc} {t : Elem} {h : Heap} {sd : Dict} {ss : List Stmt} {s s' : RState}
    (M : Reads v t h sd ss s') (hs : SameS s s') : Reads v t h sd ss s := by
  obtain ⟨hh, hd⟩ := hs
  obtain ⟨heap, d, l, g⟩ := s
  dsimp only at hh hd
  subst hh hd
  exact { M with }

/-- The two passes over a document, if the second one does what statements that make sense do: they succeed, and
carry the statements out. -/
theorem passes_runs {t : Elem} {sd0 : Dict} {h : Heap} {v : Voc} {m : PkgMap} {f : Nat} (hm : v.pm = some m)
    (G : v.Instantiable t) (L : Live h) (So : SdOk h sd0) {ss : List Stmt}
    (Fl : ∀ s1, Start v t h sd0 (f + 4) { heap := h, d := sd0 } s1 →
      forEach (handleItem (v.cfg (f + 4))) (assigns (v.cfg (f + 4)) s1.d none (Elem.tailEvs t)) s1 =
        forEach (handleItem (v.cfg (f + 4))) (ss.filterMap (Stmt.item s1.d)) s1)
    (Ft : ∀ st ∈ ss, Fits (v.ctx t h sd0) st) :
    ∃ s, passesOf (f + 4) v t { heap := h, d := sd0 } = .ok ⟨⟩ s ∧ Reads v t h sd0 ss s := by
  have hmap : v.map = m := by unfold Voc.map; rw [hm]; rfl
  obtain ⟨s1, r1, C1⟩ := create (g := v.cfg (f + 4)) (f := f) hm rfl ((v.cfg (f + 4)).objs t.inst)
    (s := { heap := h, d := sd0 }) (by
      intro p hp c hc
      obtain ⟨e, he, hds⟩ := mem_objs.1 hp
      exact G e he _ _ c hds (by rw [hmap]; exact hc)) L
  have S : Start v t h sd0 (f + 4) { heap := h, d := sd0 } s1 :=
    ⟨by rw [hmap]; exact C1, rfl, rfl, G, So, L⟩
  have So1 : ∀ it ∈ ss.filterMap (Stmt.item s1.d), Sound s1.heap s1.d it := by
    intro it hit
    obtain ⟨st, hst, hi⟩ := List.mem_filterMap.1 hit
    exact S.sound (Ft st hst) hi
  have hreg : ∀ a n k i, ends s1.heap a n = some (k, i) → regular k = true ∧ i ≠ n :=
    fun a n k i e => ⟨ends_regular e, C1.live.norefl a n k i e⟩
  have M := Sound.matching So1
  obtain ⟨s2, r2, d2, I2⟩ := items_ok (g := v.cfg (f + 4)) (f := f) rfl _ C1.live So1
  have hl := loop2_items (v.cfg (f + 4)) (Elem.tailEvs t) none s1
  rw [Fl s1 S, r2] at hl
  unfold passesOf
  rw [bind_of_ok r1]
  cases hr2 : loop2 (v.cfg (f + 4)) none (Elem.tailEvs t) s1 with
  | err e s3 => rw [hr2] at hl; exact hl.elim
  | ok _ s3 =>
    rw [hr2] at hl
    rw [bind_of_ok hr2]
    refine ⟨_, rfl, Reads.of_same (s' := s3) ?_ ⟨rfl, rfl⟩⟩
    have hs : SameS s3 s2 := hl.2
    revert hs
    generalize s3 = s
    intro hs
    have hd : s.d = s1.d := by rw [hs.2, d2]
    have I := I2
    rw [← hs.1] at I
    clear I2
    have view0 : view s1.heap = view h := S.viewEq
    have hE : ends s.heap = ends s1.heap := ends_congr I.cls
    exact {
      live := I.live
      next := Nat.le_trans (S.heap ▸ S.made.ext.next) I.next
      keys := fun u => by
        rw [hd]
        constructor
        · intro hh
          rw [← S.cls u, hh]; rfl
        · exact S.lookup_none
      cls := fun u a hu => by
        rw [hd] at hu
        rw [I.cls, ← S.cls u, hu]; rfl
      inj := fun u u' a hu hu' => by rw [hd] at hu hu'; exact S.inj hu hu'
      new := fun u c hc => by
        obtain ⟨a, h1, h2, h3, -⟩ := S.known hc
        refine ⟨a, by rw [hd]; exact h1, h2, lt_next I.live.shape (c := c) (by rw [I.cls]; exact h3)⟩
      old := fun u hc => by rw [hd]; exact S.unknown hc
      value := fun u a c n w hu hc hp hw => by
        rw [hd] at hu
        obtain ⟨c', h1, h2⟩ := S.cls_some hu
        rw [hc] at h1; cases h1
        obtain ⟨fd, h3, h4⟩ := S.cell hu h2 hp hw
        have := I.cell a c n fd h2 h3
        rw [h4] at this
        rw [attr_cell (by rw [I.cls]; exact h2) h3 this, hd]
        exact congrArg some (about_items hu (fun u' h' => S.inj h' hu) _ _)
      cells := fun u c n w hc hp hw => by
        cases hu : s1.d.lookup u with
        | none => rw [← S.cls u, hu] at hc; cases hc
        | some a =>
          obtain ⟨c', h1, h2⟩ := S.cls_some hu
          rw [hc] at h1; cases h1
          obtain ⟨fd, h3, -⟩ := S.cell hu h2 hp hw
          exact ⟨fd, h3⟩
      stored := fun u a c n fd hu hc hf => by
        rw [hd] at hu
        obtain ⟨c', h1, h2⟩ := S.cls_some hu
        rw [hc] at h1; cases h1
        rw [I.cell a c n fd h2 hf, S.val hu h2 hf, hd]
        congr 1
        funext w
        exact about_items hu (fun u' h' => S.inj h' hu) _ _
      absent := fun u a c n hu hc hn hp hl hw => by
        rw [hd] at hu
        obtain ⟨c', h1, h2⟩ := S.cls_some hu
        rw [hc] at h1; cases h1
        have hf := cellOf_plain hn hp
        have := I.cell a c n n h2 hf
        rw [S.val hu h2 hf, hw] at this
        unfold attr
        rw [getAttr_unknown (by rw [I.cls]; exact h2) hn this hl]
      others := fun x c hc hx => by
        obtain ⟨h1, h2, h3⟩ := S.older hc
        refine ⟨by rw [I.cls]; exact h1, fun n fd hf => ?_⟩
        refine attr_congr hc (by rw [I.cls]; exact h1) hf ?_
        rw [I.cell x c n fd h1 hf, h3]
        have : about x n (ss.filterMap (Stmt.item s1.d)) = [] := by
          unfold about
          rw [List.filter_eq_nil_iff]
          intro it hit
          obtain ⟨st, -, hi⟩ := List.mem_filterMap.1 hit
          obtain ⟨h4, -⟩ := item_target hi
          have hx' := hx st.subj
          rw [hd, h4] at hx'
          simp only [decide_eq_true_eq]
          rintro ⟨rfl, -⟩
          exact hx' rfl
        rw [this]
        simp
      links := fun u a u' b n hu hu' l => by
        rw [hd] at hu hu'
        rw [I.view] at l
        exact ((links_local hreg _ C1.live.cons M a n b).1 l).imp (S.before hu hu').1 (S.said hu hu').1
      linked := fun u a u' b n hu hu' U l => by
        rw [hd] at hu hu'
        rw [← S.before hu hu', ← S.said hu hu'] at l
        have e0 : ∃ k i, ends s1.heap a n = some (k, i) := by
          rcases l with l | ⟨it, hit, g⟩ | ⟨it, hit, k, i, e, g⟩
          · exact linked_end l
          · obtain ⟨⟨k, i⟩, h3⟩ := Option.isSome_iff_exists.1 g.2.2.1
            exact ⟨k, i, h3⟩
          · exact ⟨_, _, (M it hit _ _ _ _ _ g e).1⟩
        obtain ⟨k, i, e0⟩ := e0
        have e1 := e0
        rw [S.endOf hu] at e1
        obtain ⟨U1, U2⟩ := U k i e1
        rw [I.view]
        exact (links_local hreg _ C1.live.cons M a n b).2 k i e0 (fun hk y hy => S.only (U1 hk) hu hu' y hy)
          (fun hk y hy => S.only (U2 hk) hu' hu y hy) l
      toOne := fun u a n i hu e => by
        rw [hd] at hu
        have e' : ends s1.heap a n = some (.one2many, i) := by rw [S.endOf hu]; exact e
        rw [I.view, I.cls, ← view0, hd]
        exact S.toOne_fold C1.live.cons M hu e'
      toMany := fun u a n i hu e => by
        rw [hd] at hu
        have e' : ends s1.heap a n = some (.many2many, i) := by rw [S.endOf hu]; exact e
        rw [I.view, ← view0, hd]
        exact S.toMany_fold C1.live.cons M hu e'
      members := fun u a n i hu e => by
        rw [hd] at hu
        have e' : ends s1.heap a n = some (.many2one, i) := by rw [S.endOf hu]; exact e
        rw [I.view, I.cls, ← view0, hd]
        exact S.members_fold _ C1.live.cons M hu e' (fun w b hw _ => by rw [hw]; rfl)
      pairs := fun u a n i hu e => by
        rw [hd] at hu
        rw [I.view, ← view0, hd, ← S.pairs_fold C1.live.cons M]
        unfold Ctx.pairs
        rw [e]
        simp only [hu, Option.bind_some]
      outside := fun a b n hx l => by
        rw [I.view] at l
        rcases (links_local hreg _ C1.live.cons M a n b).1 l with l | l
        · rw [← view0]; exact l
        · obtain ⟨u, u', hu, hu'⟩ := S.said_lookup l
          rw [hd] at hx
          rcases hx with hx | hx
          · exact absurd hu (hx u)
          · exact absurd hu' (hx u')
      kept := fun a b n k i l e0 U1 U2 => by
        rw [hd] at U1 U2
        rw [← view0] at l
        obtain ⟨c, rd, hc, -⟩ := ends_find e0
        have e0 : ends s1.heap a n = some (k, i) := by
          unfold ends at e0 ⊢
          rw [(S.older hc).1, ← hc]; exact e0
        obtain ⟨eb, l2⟩ := linked_symm C1.live.cons e0 l
        have uniq : ∀ {a n k i b y}, ends s1.heap a n = some (k, i) → k.isMany = false → Linked (view s1.heap) a n b →
            Linked (view s1.heap) a n y → y = b := by
          intro a n k i b y e hk l l'
          have h1 := linked_one e hk l
          rw [linked_one e hk l'] at h1
          exact Option.some.inj h1
        rw [I.view]
        refine (links_local hreg _ C1.live.cons M a n b).2 k i e0 (fun hk y hy => ?_) (fun hk y hy => ?_) (.inl l)
        · rcases hy with hy | hy
          · exact uniq e0 hk l hy
          · obtain ⟨u, u', hu, hu'⟩ := S.said_lookup hy
            exact absurd ((S.said hu hu').1 hy) (U1 hk u u' hu)
        · rcases hy with hy | hy
          · exact uniq eb hk l2 hy
          · obtain ⟨u, u', hu, hu'⟩ := S.said_lookup hy
            exact absurd ((S.said hu hu').1 hy) (U2 hk u' u hu) }

/-- The keys of the dictionary after the first pass. -/
theorem Start.keys {v : Voc} {t : Elem} {h : Heap} {sd : Dict} {f : Nat} {s0 s1 : RState} (S : Start v t h sd f s0 s1) (u : Str) :
    s1.d.lookup u = none ↔ (v.ctx t h sd).cls u = none :=
  ⟨fun hh => by rw [← S.cls u, hh]; rfl, S.lookup_none⟩

/-- Reading a document, if the second pass does what statements that make sense do, succeeds, and carries the
statements out. -/
theorem read_runs {env : Env} {src : Str} {t : Elem} (D : IsDoc src t) {pm uri} {sd : Option Dict} {h : Heap}
    {v : Voc} {m : PkgMap} {f : Nat} (hv : voc env t pm uri = some v) (hm : v.pm = some m) (hf : env.fuel = f + 4)
    (G : v.Instantiable t) (L : Live h) (So : SdOk h (sd.getD [])) {ss : List Stmt}
    (Fl : ∀ s1, Start v t h (sd.getD []) env.fuel { heap := h, d := sd.getD [] } s1 →
      forEach (handleItem (v.cfg env.fuel)) (assigns (v.cfg env.fuel) s1.d none (Elem.tailEvs t)) s1 =
        forEach (handleItem (v.cfg env.fuel)) (ss.filterMap (Stmt.item s1.d)) s1)
    (Ft : ∀ st ∈ ss, Fits (v.ctx t h (sd.getD [])) st) :
    ∃ s, read env src pm uri sd h = .ok ⟨⟩ s ∧ Reads v t h (sd.getD []) ss s := by
  have ha := read_alike D env pm uri sd h
  rw [hv] at ha
  dsimp only at ha
  rw [hf] at ha Fl
  obtain ⟨s3, r, M⟩ := passes_runs hm G L So Fl Ft
  rw [r] at ha
  cases hr : read env src pm uri sd h with
  | err e s => rw [hr] at ha; exact ha.elim
  | ok _ s =>
    rw [hr] at ha
    exact ⟨s, rfl, M.of_same ha.2⟩

/-- Reading a document whose statements make sense succeeds, and carries them out. -/
theorem read_reads {env : Env} {src : Str} {t : Elem} (D : IsDoc src t) {pm uri} {sd : Option Dict} {h : Heap}
    {v : Voc} {m : PkgMap} {f : Nat} (hv : voc env t pm uri = some v) (hm : v.pm = some m) (hf : env.fuel = f + 4)
    (G : v.Instantiable t) (L : Live h) (So : SdOk h (sd.getD [])) {ss : List Stmt}
    (Fl : ∀ d : Dict, (∀ u, d.lookup u = none ↔ (v.ctx t h (sd.getD [])).cls u = none) →
      assigns (v.cfg env.fuel) d none (Elem.tailEvs t) = ss.filterMap (Stmt.item d))
    (Ft : ∀ st ∈ ss, Fits (v.ctx t h (sd.getD [])) st) :
    ∃ s, read env src pm uri sd h = .ok ⟨⟩ s ∧ Reads v t h (sd.getD []) ss s :=
  read_runs D hv hm hf G L So (fun s1 S => by rw [Fl s1.d S.keys]) Ft

/-- Reading a document that makes sense succeeds, and gives its meaning. -/
theorem read_means {env : Env} {src : Str} {t : Elem} (D : IsDoc src t) {pm uri} {sd : Option Dict} {h : Heap}
    {v : Voc} {m : PkgMap} {f : Nat} (hv : voc env t pm uri = some v) (hm : v.pm = some m) (hf : env.fuel = f + 4)
    (G : v.Instantiable t) (L : Live h) (So : SdOk h (sd.getD [])) (Fl : v.FlatAll t.kids)
    (Ft : ∀ st ∈ v.says t, Fits (v.ctx t h (sd.getD [])) st) :
    ∃ s, read env src pm uri sd h = .ok ⟨⟩ s ∧ Means v t h (sd.getD []) s :=
  read_reads D hv hm hf G L So (fun d _ => assigns_doc v env.fuel d t Fl) Ft

/-! ### Descriptions inside other descriptions -/

section
variable (v : Voc) (f : Nat) (d : Dict) {known : Str → Bool}

mutual
theorem hear_none : ∀ (e : Elem), (v.hear known none e).2 = none
  | .mk ds t as x ks => by
    unfold Voc.hear
    split <;> rfl
theorem hearAll_none : ∀ (ks : List Elem), (v.hearAll known none ks).2 = none
  | [] => rfl
  | k :: ks => by
    unfold Voc.hearAll
    dsimp only
    rw [hear_none k]
    exact hearAll_none ks
end

mutual
theorem hear_some (u : Str) : ∀ (e : Elem), (v.hear known (some u) e).2 = none ∨ (v.hear known (some u) e).2 = some u
  | .mk ds t as x ks => by
    have := hearAll_some u ks
    unfold Voc.hear
    cases hr : v.hearAll known (some u) ks with
    | mk l c =>
      rw [hr] at this
      rcases this with this | this
      · cases this; exact .inl rfl
      · cases this
        dsimp only
        split
        · exact .inl rfl
        · exact .inr rfl
theorem hearAll_some (u : Str) : ∀ (ks : List Elem),
    (v.hearAll known (some u) ks).2 = none ∨ (v.hearAll known (some u) ks).2 = some u
  | [] => .inr rfl
  | k :: ks => by
    unfold Voc.hearAll
    dsimp only
    rcases hear_some u k with h | h
    · rw [h]; exact .inl (hearAll_none v ks)
    · rw [h]; exact hearAll_some u ks
end

theorem assigns_start (e : Elem) (es : List Ev) : assigns (v.cfg f) d none (Ev.start e.tag e.attrs :: es) =
    match v.subj? e with
    | some u => assigns (v.cfg f) d (d.lookup u) es
    | none => assigns (v.cfg f) d none es := by
  rw [assigns, inBase_name, idOf_id]
  unfold Voc.subj?
  cases v.name? e.tag with
  | none => rfl
  | some n =>
    simp only [Option.isSome_some, if_true]
    cases v.id? e <;> rfl

theorem assigns_close (a : Addr) (e : Elem) {u} (h : v.subj? e = some u) (r : Bool) (es : List Ev) :
    assigns (v.cfg f) d (some a) (.fin r e.tag e.attrs e.text :: es) = assigns (v.cfg f) d none es := by
  unfold Voc.subj? at h
  rw [assigns, inBase_name, idOf_id]
  cases hn : v.name? e.tag with
  | none => rw [hn] at h; cases h
  | some n =>
    rw [hn] at h
    simp only [Option.isSome_some, if_true] at h ⊢
    rw [h]

theorem stmt_item1 {u : Str} {a : Addr} (hu : d.lookup u = some a) (e : Elem) :
    (v.stmt? u e).toList.filterMap (Stmt.item d) = (propItem v a e).toList := by
  have := stmt_item v d hu [e]
  simp only [List.filterMap_cons, List.filterMap_nil] at this
  cases h1 : v.stmt? u e <;> cases h2 : propItem v a e <;> rw [h1, h2] at this <;> simpa using this

mutual
theorem assigns_hear (hk : ∀ u, known u = (d.lookup u).isSome) : ∀ (cur : Option Str) (e : Elem) (es : List Ev),
    (∀ u, cur = some u → (d.lookup u).isSome) →
    assigns (v.cfg f) d (cur.bind fun u => d.lookup u) (e.evsN false ++ es) =
      (v.hear known cur e).1.filterMap (Stmt.item d) ++
        assigns (v.cfg f) d ((v.hear known cur e).2.bind fun u => d.lookup u) es
  | none, .mk ds t as x ks, es, _ => by
    simp only [Elem.evsN, List.cons_append, List.append_assoc, List.nil_append, Option.bind_none]
    rw [show Ev.start t as = Ev.start (Elem.mk ds t as x ks).tag (Elem.mk ds t as x ks).attrs from rfl,
      assigns_start]
    unfold Voc.hear
    cases hs : v.subj? (.mk ds t as x ks) with
    | none =>
      dsimp only
      have := assigns_hearAll hk none ks (Ev.fin false t as x :: es) nofun
      rw [hearAll_none] at this
      exact this
    | some u =>
      dsimp only
      cases hu : d.lookup u with
      | none =>
        rw [hk u, hu]
        have := assigns_hearAll hk none ks (Ev.fin false t as x :: es) nofun
        rw [hearAll_none] at this
        exact this
      | some a =>
        rw [hk u, hu]
        simp only [Option.isSome_some, if_true, Option.bind_none]
        have := assigns_hearAll hk (some u) ks (Ev.fin false t as x :: es)
          (fun u' h => by cases h; rw [hu]; rfl)
        simp only [Option.bind_some, hu] at this
        rw [this]
        congr 1
        rcases hearAll_some v (known := known) u ks with h | h
        · rw [h]; rfl
        · rw [h]
          simp only [Option.bind_some, hu]
          exact assigns_close v f d a (.mk ds t as x ks) hs false es
  | some u, .mk ds t as x ks, es, hc => by
    simp only [Elem.evsN, List.cons_append, List.append_assoc, List.nil_append]
    obtain ⟨a, hu⟩ := Option.isSome_iff_exists.1 (hc u rfl)
    have h0 : assigns (v.cfg f) d ((some u).bind fun u => d.lookup u) (Ev.start t as :: (Elem.evsNAll ks ++ Ev.fin false t as x :: es)) =
        assigns (v.cfg f) d ((some u).bind fun u => d.lookup u) (Elem.evsNAll ks ++ Ev.fin false t as x :: es) := by
      simp only [Option.bind_some, hu]
      rfl
    rw [h0, assigns_hearAll hk (some u) ks _ hc]
    unfold Voc.hear
    have := hearAll_some v (known := known) u ks
    cases hr : v.hearAll known (some u) ks with
    | mk l c =>
      rw [hr] at this
      rcases this with this | this
      · cases this; rfl
      · cases this
        simp only [Option.bind_some, hu]
        cases hs : v.subj? (.mk ds t as x ks) with
        | some u' =>
          dsimp only
          rw [show Ev.fin false t as x = Ev.fin false (Elem.mk ds t as x ks).tag (Elem.mk ds t as x ks).attrs
            (Elem.mk ds t as x ks).text from rfl, assigns_close v f d a _ hs]
          rfl
        | none =>
          dsimp only
          rw [show Ev.fin false t as x = Ev.fin false (Elem.mk ds t as x ks).tag (Elem.mk ds t as x ks).attrs
            (Elem.mk ds t as x ks).text from rfl, assigns_fin v f d a _ hs, List.filterMap_append,
            stmt_item1 v d hu, List.append_assoc]
          simp only [Option.bind_some, hu]
theorem assigns_hearAll (hk : ∀ u, known u = (d.lookup u).isSome) : ∀ (cur : Option Str) (ks : List Elem) (es : List Ev),
    (∀ u, cur = some u → (d.lookup u).isSome) →
    assigns (v.cfg f) d (cur.bind fun u => d.lookup u) (Elem.evsNAll ks ++ es) =
      (v.hearAll known cur ks).1.filterMap (Stmt.item d) ++
        assigns (v.cfg f) d ((v.hearAll known cur ks).2.bind fun u => d.lookup u) es
  | cur, [], es, _ => rfl
  | cur, k :: ks, es, hc => by
    unfold Voc.hearAll
    simp only [Elem.evsNAll, List.append_assoc, List.filterMap_append]
    rw [assigns_hear hk cur k _ hc]
    congr 1
    refine assigns_hearAll hk _ ks es fun u hu => ?_
    cases cur with
    | none => rw [hear_none] at hu; cases hu
    | some u' =>
      rcases hear_some v (known := known) u' k with h | h
      · rw [h] at hu; cases hu
      · rw [h] at hu; cases hu
        exact hc u rfl
end

end

theorem assigns_heard {v : Voc} {f : Nat} {d : Dict} {t : Elem} {h : Heap} {sd : Dict}
    (hd : ∀ u, d.lookup u = none ↔ (v.ctx t h sd).cls u = none) :
    assigns (v.cfg f) d none (Elem.tailEvs t) = (v.heard t h sd).filterMap (Stmt.item d) := by
  obtain ⟨ds, tag, as, x, ks⟩ := t
  have := assigns_hearAll v f d (known := fun u => ((v.ctx (.mk ds tag as x ks) h sd).cls u).isSome)
    (fun u => by
      have := hd u
      cases h1 : d.lookup u <;> cases h2 : (v.ctx (.mk ds tag as x ks) h sd).cls u <;> simp_all)
    none ks [Ev.fin true tag as x] nofun
  rw [hearAll_none] at this
  unfold Elem.tailEvs Voc.heard
  rw [show (none : Option Str).bind (fun u => d.lookup u) = none from rfl] at this
  rw [this]
  simp [assigns, Elem.kids]

/-- Reading any document whose statements make sense. -/
theorem read_heard {env : Env} {src : Str} {t : Elem} (D : IsDoc src t) {pm uri} {sd : Option Dict} {h : Heap}
    {v : Voc} {m : PkgMap} {f : Nat} (hv : voc env t pm uri = some v) (hm : v.pm = some m) (hf : env.fuel = f + 4)
    (G : v.Instantiable t) (L : Live h) (So : SdOk h (sd.getD []))
    (Ft : ∀ st ∈ v.heard t h (sd.getD []), Fits (v.ctx t h (sd.getD [])) st) :
    ∃ s, read env src pm uri sd h = .ok ⟨⟩ s ∧ Reads v t h (sd.getD []) (v.heard t h (sd.getD [])) s :=
  read_reads D hv hm hf G L So (fun _ hd => assigns_heard hd) Ft

end Cim
end Verif
