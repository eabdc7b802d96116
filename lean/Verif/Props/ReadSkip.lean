import Verif.Cim.Skip
/-
Documents the reader cannot tell apart: respelt identifiers (C31), dangling references (C33), unknown
classes and attributes (C34).  The documents are arbitrary.
-/
namespace Verif
namespace Props
open Cim Py Hp Spec Xml

/-! ### C31 -/

/-- The RDF namespace in force for a document. -/
def rdfNs (t : Elem) : Str := (bound (lead t) c!"rdf").getD rdfURI

/-- Qualified name of an RDF attribute. -/
def rdfName (rdf n : Str) : Str := '{' :: rdf ++ '}' :: n

/-- The same attributes, but possibly `rdf:about="#u"` instead of `rdf:ID="u"`. -/
inductive RespeltAttrs (rdf : Str) : List (Str × Str) → List (Str × Str) → Prop
  | same (as) : RespeltAttrs rdf as as
  | swap (l1 l2 u) : (∀ p ∈ l1 ++ l2, p.1 ≠ rdfName rdf c!"ID" ∧ p.1 ≠ rdfName rdf c!"about") →
      RespeltAttrs rdf (l1 ++ (rdfName rdf c!"ID", u) :: l2) (l1 ++ (rdfName rdf c!"about", '#' :: u) :: l2)

mutual
/-- The same tree, but for elements with `rdf:about="#u"` instead of `rdf:ID="u"`. -/
inductive Respelt (rdf : Str) : Elem → Elem → Prop
  | mk {ds t x as as' ks ks'} : RespeltAttrs rdf as as' → RespeltAll rdf ks ks' →
      Respelt rdf (.mk ds t as x ks) (.mk ds t as' x ks')
inductive RespeltAll (rdf : Str) : List Elem → List Elem → Prop
  | nil : RespeltAll rdf [] []
  | cons {k k' ks ks'} : Respelt rdf k k' → RespeltAll rdf ks ks' → RespeltAll rdf (k :: ks) (k' :: ks')
end

theorem rdfName_inj {rdf n n' : Str} (h : rdfName rdf n = rdfName rdf n') : n = n' := by
  unfold rdfName at h
  have := List.append_cancel_left (by simpa using h : ('{' :: rdf) ++ '}' :: n = ('{' :: rdf) ++ '}' :: n')
  simpa using this

theorem lookup_absent {k : Str} : ∀ {l : List (Str × Str)}, (∀ p ∈ l, p.1 ≠ k) → l.lookup k = none
  | [], _ => rfl
  | p :: l, h => by
    have h1 := h p (.head _)
    rw [List.lookup_cons, show (k == p.1) = false by simpa using fun e => h1 e.symm]
    exact lookup_absent fun q hq => h q (.tail _ hq)

theorem lookup_mid {k k' v : Str} : ∀ (l1 l2 : List (Str × Str)), k' ≠ k →
    (l1 ++ (k', v) :: l2).lookup k = (l1 ++ l2).lookup k
  | [], l2, h => by
    rw [List.nil_append, List.nil_append, List.lookup_cons, show (k == k') = false by simpa using fun e => h e.symm]
  | p :: l1, l2, h => by
    rw [List.cons_append, List.cons_append, List.lookup_cons, List.lookup_cons, lookup_mid l1 l2 h]

theorem lookup_here {k v : Str} : ∀ {l1 l2 : List (Str × Str)}, (∀ p ∈ l1, p.1 ≠ k) →
    (l1 ++ (k, v) :: l2).lookup k = some v
  | [], l2, _ => by simp
  | p :: l1, l2, h => by
    have h1 := h p (.head _)
    rw [List.cons_append, List.lookup_cons, show (k == p.1) = false by simpa using fun e => h1 e.symm]
    exact lookup_here fun q hq => h q (.tail _ hq)

theorem respeltAttrs_id {g : Cfg} {as as'} (h : RespeltAttrs g.rdf as as') : g.idOf as = g.idOf as' := by
  cases h with
  | same => rfl
  | swap l1 l2 u h =>
    have hk : ∀ n, g.key n = rdfName g.rdf n := fun _ => rfl
    have h1 : ∀ p ∈ l1, p.1 ≠ rdfName g.rdf c!"ID" := fun p hp => (h p (List.mem_append_left _ hp)).1
    have h2 : ∀ p ∈ l1, p.1 ≠ rdfName g.rdf c!"about" := fun p hp => (h p (List.mem_append_left _ hp)).2
    have ne : rdfName g.rdf c!"about" ≠ rdfName g.rdf c!"ID" := fun e => absurd (rdfName_inj e) (by decide)
    unfold Cfg.idOf
    rw [hk, hk, lookup_here h1, lookup_mid _ _ ne, lookup_absent fun p hp => (h p hp).1, lookup_here h2]
    rfl

theorem respeltAttrs_resource {g : Cfg} {as as'} (h : RespeltAttrs g.rdf as as') :
    as.lookup (g.key c!"resource") = as'.lookup (g.key c!"resource") := by
  cases h with
  | same => rfl
  | swap l1 l2 u h =>
    have hk : ∀ n, g.key n = rdfName g.rdf n := fun _ => rfl
    rw [hk, lookup_mid _ _ (fun e => absurd (rdfName_inj e) (by decide)),
      lookup_mid _ _ (fun e => absurd (rdfName_inj e) (by decide))]

mutual
theorem Respelt.evs {g : Cfg} (r : Bool) {t t'} (h : Respelt g.rdf t t') : EvsSame g (t.evsN r) (t'.evsN r) := by
  cases h with
  | mk ha hk =>
    simp only [Elem.evsN]
    exact .cons (.start (respeltAttrs_id ha))
      ((RespeltAll.evs hk).append (.cons (.fin (respeltAttrs_id ha) (respeltAttrs_resource ha)) .nil))
theorem RespeltAll.evs {g : Cfg} {ks ks'} (h : RespeltAll g.rdf ks ks') :
    EvsSame g (Elem.evsNAll ks) (Elem.evsNAll ks') := by
  cases h with
  | nil => exact .nil
  | cons h1 h2 => exact (h1.evs false).append h2.evs
end

theorem Respelt.tail {g : Cfg} {t t'} (h : Respelt g.rdf t t') : EvsSame g (Elem.tailEvs t) (Elem.tailEvs t') := by
  cases h with
  | mk ha hk => exact hk.evs.append (.cons (.fin (respeltAttrs_id ha) (respeltAttrs_resource ha)) .nil)

mutual
theorem Respelt.lead {rdf : Str} {t t'} (h : Respelt rdf t t') : Spec.lead t' = Spec.lead t := by
  cases h with
  | mk ha hk => simp only [Spec.lead, hk.lead]
theorem RespeltAll.lead {rdf : Str} {ks ks'} (h : RespeltAll rdf ks ks') : leadAll ks' = leadAll ks := by
  cases h with
  | nil => rfl
  | cons h1 h2 => exact h1.lead
end

theorem voc_rdf {env t pm uri v} (h : voc env t pm uri = some v) : v.rdf = rdfNs t := by
  unfold voc at h
  dsimp only at h
  split at h
  · cases h; rfl
  · split at h
    · cases h; rfl
    · cases h

/-- C31: writing `rdf:about="#x"` for `rdf:ID="x"` on any elements of a document does not change
anything: result, log, errors. -/
theorem C31 {env src src'} {t t' : Elem} (D : IsDoc src t) (D' : IsDoc src' t') (R : Respelt (rdfNs t) t t')
    (pm uri sd) (h : Heap) : Cim.read env src' pm uri sd h = Cim.read env src pm uri sd h := by
  unfold Cim.read cimread
  simp only [configure_lead D D' R.lead, overEvents_doc D, overEvents_doc D']
  have hc := configure_doc D env pm uri { heap := h, d := sd.getD [] }
  cases hv : voc env t pm uri with
  | none =>
    rw [hv] at hc; obtain ⟨l, hc⟩ := hc
    rw [bind_of_err hc, bind_of_err hc]
  | some v =>
    rw [hv] at hc; obtain ⟨l, hc⟩ := hc
    rw [bind_of_ok hc, bind_of_ok hc]
    have R' : Respelt (v.cfg env.fuel).rdf t t' := by
      show Respelt v.rdf t t'
      rw [voc_rdf hv]; exact R
    rw [loop1_same R'.tail, loop2_same R'.tail]

/-! ### C33 -/

theorem key_eq (v : Voc) (f : Nat) (n : Str) : (v.cfg f).key n = v.rdfAttr n := rfl

theorem leaf_objs {v : Voc} {f : Nat} {p : Elem} (leaf : p.kids = []) (noId : ¬ ∃ w, v.HasId p w) :
    (v.cfg f).objs p.post = [] := by
  have hid : (v.cfg f).idOf p.attrs = none := idOf_none.2 noId
  obtain ⟨ds, tag, as, x, ks⟩ := p
  cases leaf
  simp only [Elem.post, Elem.postAll, List.nil_append, Cfg.objs, List.filterMap_cons, List.filterMap_nil]
  simp only [Elem.attrs] at hid ⊢
  rw [hid]
  split
  · rfl
  · rename_i hh; split at hh <;> cases hh

/-- C33: in any document, a reference to an identifier that is not in the result has no effect: the
call ends as if the element were absent, with the same objects. (`unmodelled`: the model does not
describe the call, for instance when an attribute is the name of a method.) -/
theorem C33_ignored {env : Env} {src src' : Str} {t t' p : Elem} (D : IsDoc src t) (D' : IsDoc src' t')
    (I : InsDoc p t t') {pm uri sd} {h : Heap} {v : Voc} (hv : voc env t pm uri = some v) {u : Str}
    (leaf : p.kids = []) (noId : ¬ ∃ w, v.HasId p w)
    (res : p.attrs.lookup (v.rdfAttr c!"resource") = some ('#' :: u))
    (gone : (Cim.read env src' pm uri sd h).state.d.lookup u = none)
    (mod : (Cim.read env src' pm uri sd h).error? ≠ some .unmodelled) :
    SameR (Cim.read env src' pm uri sd h) (Cim.read env src pm uri sd h) := by
  have hv' : voc env t' pm uri = some v := by
    rw [← hv]; unfold voc; rw [I.lead]
  have hid : (v.cfg env.fuel).idOf p.attrs = none := idOf_none.2 noId
  have hob := leaf_objs (f := env.fuel) leaf noId
  obtain ⟨A, B, e1, e2⟩ := insDoc_evs I
  refine (read_skip D D' I hv (by rw [hob]; exact Alike.pure _) e1 e2 ?_).resolve_left mod
  intro s1 i s2 hr h2
  have hd1 : (Cim.read env src' pm uri sd h).state.d = s1.d := (read_end D' hv' hr).1
  have hd2 : s2.d.lookup u = none := by
    have := run2_d (v.cfg env.fuel) A none s1
    rw [h2] at this
    rw [show s2.d = s1.d from this, ← hd1]; exact gone
  obtain ⟨ds, tag, as, x, ks⟩ := p
  cases leaf
  rw [run2_leaf _ (show (v.cfg env.fuel).idOf as = none from hid)]
  cases i with
  | none => exact .inr (SameR.refl _)
  | some a =>
    dsimp only
    split
    · have ht : ((v.cfg env.fuel).item a tag as x).res = some ('#' :: u) := res
      rcases handleItem_dangling (v.cfg env.fuel) ht hd2 with h3 | ⟨h3, -⟩ | ⟨h3, -⟩
      · rw [bind_of_err h3]; exact .inl ⟨_, rfl⟩
      · rw [bind_of_ok h3]; exact .inr ⟨rfl, rfl, rfl⟩
      · rw [bind_of_ok h3]; exact .inr ⟨rfl, rfl, rfl⟩
    · exact .inr (SameR.refl _)

/-- Name of the class of an object. -/
def clsName (h : Heap) (a : Addr) : Str := ((h.cls a).map Cls.name).getD []

/-- The objects of start_dict exist. -/
def Exists (h : Heap) (sd : Option Dict) : Prop := ∀ u a, (sd.getD []).lookup u = some a → a < h.next

/-- Every statement of a successful call is carried out at some moment. -/
theorem moment {env : Env} {src : Str} {t : Elem} (D : IsDoc src t) {pm uri sd} {h : Heap} {v : Voc} {s : RState}
    (R : Cim.read env src pm uri sd h = .ok ⟨⟩ s) (hv : voc env t pm uri = some v) (E : Exists h sd)
    (F : v.FlatAll t.kids) {st : Stmt} (hst : st ∈ v.says t) {a} (hu : s.d.lookup st.subj = some a) :
    ∃ s0 s1 s2, forEach (fun p : Str × Str => instantiate (v.cfg env.fuel) p.1 p.2) ((v.cfg env.fuel).objs t.inst)
        s0 = .ok ⟨⟩ s1 ∧ s0.heap = h ∧ s0.d = sd.getD [] ∧ Ext s1.heap s2.heap ∧ s1.d = s.d ∧ s2.d = s.d ∧ a < s1.heap.next ∧ 
      ∃ s3, handleItem (v.cfg env.fuel) ⟨a, st.attr, st.res, st.text⟩ s2 = .ok ⟨⟩ s3 ∧
      clsName s2.heap a = clsName s.heap a ∧ Ext s2.heap s.heap ∧
      (∀ l ∈ s3.log, l ∈ s.log) ∧ ∀ k n, (k, n) ∈ s3.grouped → ∃ n', n ≤ n' ∧ .noAttr k.1 k.2 n' ∈ s.log := by
  unfold Cim.read at R
  rw [cimread_doc D] at R
  obtain ⟨g, s0, h1, R⟩ := bind_ok_inv R
  obtain ⟨_, s1, h2, R⟩ := bind_ok_inv R
  obtain ⟨_, s4, h3, hflush⟩ := bind_ok_inv R
  have hc := configure_doc D env pm uri { heap := h, d := sd.getD [] }
  rw [hv] at hc
  obtain ⟨l, hc⟩ := hc
  rw [hc] at h1; cases h1
  have hd4 : s4.d = s1.d := by
    have := loop2_d (v.cfg env.fuel) (Elem.tailEvs t) none s1
    rw [h3] at this; exact this
  unfold flushLog Py.modify at hflush
  cases hflush
  have hu : s4.d.lookup st.subj = some a := hu
  rw [hd4] at hu
  have ha : a < s1.heap.next := pass1_below h2 E hu
  have hit : (⟨a, st.attr, st.res, st.text⟩ : Item) ∈ assigns (v.cfg env.fuel) s1.d none (Elem.tailEvs t) := by
    rw [assigns_doc v env.fuel s1.d t F]
    refine List.mem_filterMap.2 ⟨st, hst, ?_⟩
    unfold Stmt.item
    rw [hu]; rfl
  obtain ⟨s2, s3, k1, k2, k3, k4, k5⟩ := loop2_moment _ _ _ _ _ h3 _ hit
  have k0 : Ext s2.heap s4.heap := by
    have : Ext s2.heap s3.heap := by
      have := (handleItem_ext (v.cfg env.fuel) ⟨a, st.attr, st.res, st.text⟩ s2)
      rw [k1] at this; exact this
    exact this.trans k4
  refine ⟨_, s1, s2, h2, rfl, rfl, k3, hd4.symm, by rw [k2]; exact hd4.symm, ha, s3, k1, ?_, k0, ?_, ?_⟩
  · unfold clsName
    rw [k0.cls a (Nat.lt_of_lt_of_le ha k3.next)]
  · intro l hl
    exact List.mem_append_left _ (k5.log l hl)
  · intro k n hk
    obtain ⟨n', h4, h5⟩ := k5.grouped k n hk
    exact ⟨n', h4, List.mem_append_right _ (List.mem_map.2 ⟨_, h5, rfl⟩)⟩

theorem target_res {st : Stmt} {u : Str} (h : st.target = some u) : st.res = some ('#' :: u) := by
  unfold Stmt.target at h
  split at h
  · rename_i hr
    split at h
    · rename_i hc; cases h; rw [hr, hc]
    · cases h
  · cases h

/-- C33: after a successful call the log has a message for each reference to an identifier that is not
in the result: that the target is missing, or that the object has no such attribute. -/
theorem C33_reported {env : Env} {src : Str} {t : Elem} (D : IsDoc src t) {pm uri sd} {h : Heap} {v : Voc} {s : RState}
    (R : Cim.read env src pm uri sd h = .ok ⟨⟩ s) (hv : voc env t pm uri = some v) (E : Exists h sd)
    (F : v.FlatAll t.kids) {st : Stmt} (hst : st ∈ v.says t) {a u} (hu : s.d.lookup st.subj = some a)
    (ht : st.target = some u) (gone : s.d.lookup u = none) :
    .dangling (clsName s.heap a) u ∈ s.log ∨ ∃ k, 0 < k ∧ .noAttr (clsName s.heap a) st.attr k ∈ s.log := by
  obtain ⟨s0, s1, s2, h1, -, -, -, -, h5, h6, s3, h7, h8, -, h9, h10⟩ := moment D R hv E F hst hu
  rcases handleItem_dangling (v.cfg env.fuel) (it := ⟨a, st.attr, st.res, st.text⟩) (u := u) (s := s2)
    (target_res ht) (by rw [h5]; exact gone) with k | ⟨k, -⟩ | ⟨k, -⟩
  · rw [h7] at k; cases k
  · rw [h7] at k; cases k
    right
    obtain ⟨n, k1, k2⟩ := mem_bump (clsName s2.heap a, st.attr) s2.grouped
    obtain ⟨n', k3, k4⟩ := h10 _ n k2
    rw [h8] at k4
    exact ⟨n', Nat.lt_of_lt_of_le k1 k3, k4⟩
  · rw [h7] at k; cases k
    left
    rw [← h8]
    exact h9 _ (List.mem_append_right _ (.head _))

/-! ### C34 -/

theorem noSubj_objs {v : Voc} {f : Nat} {es : List Elem} (h : ∀ x ∈ es, v.subj? x = none) : (v.cfg f).objs es = [] := by
  unfold Cfg.objs
  rw [List.filterMap_eq_nil_iff]
  intro e he
  have := h e he
  unfold Voc.subj? at this
  rw [inBase_name]
  split
  · rename_i hb
    rw [if_pos hb] at this
    rw [idOf_id, this]; rfl
  · rfl

/-- C34: in any document, a top-level element of a class that is not in the package map (with property
elements inside, or anything else that does not describe objects) has no effect, provided nothing else
brings its identifier into the result: the call ends as if the element were absent. -/
theorem C34_class {env : Env} {src src' : Str} {t t' e : Elem} {k1 k2} (D : IsDoc src t) (D' : IsDoc src' t')
    (I : InsDoc e t t') (hk : t.kids = k1 ++ k2) (hk' : t'.kids = k1 ++ e :: k2) {pm uri sd} {h : Heap} {v : Voc}
    (hv : voc env t pm uri = some v) {m : PkgMap} (hm : v.pm = some m) {cls u : Str} (hd : v.Describes e cls u)
    (unknown : m.lookup cls = none) (inner : ∀ x ∈ Elem.postAll e.kids, ∀ cls' u', ¬ v.Describes x cls' u')
    (gone : (Cim.read env src' pm uri sd h).state.d.lookup u = none)
    (mod : (Cim.read env src' pm uri sd h).error? ≠ some .unmodelled) :
    SameR (Cim.read env src' pm uri sd h) (Cim.read env src pm uri sd h) := by
  have hv' : voc env t' pm uri = some v := by
    rw [← hv]; unfold voc; rw [I.lead]
  have inner : ∀ x ∈ Elem.postAll e.kids, v.subj? x = none := by
    intro x hx
    cases hs : v.subj? x with
    | none => rfl
    | some u' =>
      unfold Voc.subj? at hs
      split at hs
      · rename_i hn
        obtain ⟨n, hn⟩ := Option.isSome_iff_exists.1 hn
        exact absurd ⟨Voc.name?_iff.1 hn, Voc.id?_iff.1 hs⟩ (inner x hx n u')
      · cases hs
  obtain ⟨htag, hid⟩ := hd
  have hb : (v.cfg env.fuel).inBase e.tag = true := inBase_iff.2 ⟨cls, htag⟩
  have hi : (v.cfg env.fuel).idOf e.attrs = some u := idOf_iff.2 hid
  have hl : (v.cfg env.fuel).local e.tag = cls := by rw [htag, local_tagOf]
  obtain ⟨ds, tg, as, x, ks⟩ := e
  simp only [Elem.tag, Elem.attrs, Elem.kids] at hb hi hl inner
  have hob : (v.cfg env.fuel).objs (Elem.post (.mk ds tg as x ks)) = [(cls, u)] := by
    rw [show Elem.post (.mk ds tg as x ks) = Elem.postAll ks ++ [.mk ds tg as x ks] from rfl, objs_append,
      noSubj_objs inner]
    simp only [Cfg.objs, List.nil_append, List.filterMap_cons, List.filterMap_nil, Elem.tag, Elem.attrs, hb, hi, hl, if_true]
    rfl
  have hp : Alike (forEach (fun p : Str × Str => instantiate (v.cfg env.fuel) p.1 p.2)
      ((v.cfg env.fuel).objs (Elem.post (.mk ds tg as x ks)))) (Py.pure ⟨⟩) := by
    rw [hob]
    show Alike (instantiate (v.cfg env.fuel) cls u >>= fun _ => Py.pure PUnit.unit) (Py.pure ⟨⟩)
    rw [pbind_pure]
    unfold instantiate
    rw [show (v.cfg env.fuel).pm = some m from hm]
    dsimp only
    rw [unknown]
    exact Alike.log _
  have e1 : Elem.tailEvs t = Elem.evsNAll k1 ++ (Elem.evsNAll k2 ++ [.fin true t.tag t.attrs t.text]) := by
    obtain ⟨ds', tg', as', x', ks'⟩ := t
    simp only [Elem.kids] at hk
    subst hk
    simp only [Elem.tailEvs, evsNAll_append, List.append_assoc]
    rfl
  have e2 : Elem.tailEvs t' = Elem.evsNAll k1 ++ (Elem.evsN false (.mk ds tg as x ks) ++
      (Elem.evsNAll k2 ++ [.fin true t.tag t.attrs t.text])) := by
    rw [← I.tag, ← I.attrs, ← I.text]
    obtain ⟨ds', tg', as', x', ks'⟩ := t'
    simp only [Elem.kids] at hk'
    subst hk'
    simp only [Elem.tailEvs, evsNAll_append, List.append_assoc, Elem.evsNAll]
    rfl
  refine (read_skip D D' I hv hp e1 e2 ?_).resolve_left mod
  intro s1 i s2 hr h2
  right
  have hi' := run2_outAll k1 h2
  subst hi'
  have hd1 : (Cim.read env src' pm uri sd h).state.d = s1.d := (read_end D' hv' hr).1
  have hd2 : s2.d.lookup u = none := by
    have := run2_d (v.cfg env.fuel) (Elem.evsNAll k1) none s1
    rw [h2] at this
    rw [show s2.d = s1.d from this, ← hd1]; exact gone
  have st1 : step2 (v.cfg env.fuel) none (.start tg as) s2 = .ok none { s2 with log := s2.log ++ [.missing cls u] } := by
    unfold step2
    dsimp only
    rw [if_pos hb, hi]
    dsimp only
    rw [pybind_eq]
    simp only [Py.get, hd2, hl]
    rfl
  show SameR ((step2 (v.cfg env.fuel) none (.start tg as) >>= fun i =>
    run2 (v.cfg env.fuel) i (Elem.evsNAll ks ++ [.fin false tg as x])) s2) _
  rw [bind_of_ok st1, run2_append, bind_of_ok (run2_silent (noSubj_evsAll ks inner) _)]
  exact ⟨rfl, rfl, rfl⟩

/-- The element `p` is inserted somewhere inside a top-level description of `u`. -/
structure InsIn (v : Voc) (u : Str) (p t t' : Elem) : Prop extends InsDoc p t t' where
  inside : ∃ k1 k2 ds tg as x ks ks', t.kids = k1 ++ .mk ds tg as x ks :: k2 ∧ t'.kids = k1 ++ .mk ds tg as x ks' :: k2 ∧
    (∃ cls, v.Describes (.mk ds tg as x ks) cls u) ∧ (∀ e ∈ Elem.postAll ks, ∀ cls' u', ¬ v.Describes e cls' u') ∧
    Ins p ks ks'

/-- C34: in any document, a property element for an attribute the object does not have (after the call)
has no effect: the call ends as if the element were absent. -/
theorem C34_attribute {env : Env} {src src' : Str} {t t' p : Elem} {u n : Str} (D : IsDoc src t) (D' : IsDoc src' t')
    {pm uri sd} {h : Heap} {v : Voc} (I : InsIn v u p t t') (hv : voc env t pm uri = some v) (E : Exists h sd)
    (leaf : p.kids = []) (prop : v.Property p n)
    (lacks : ∀ a, (Cim.read env src' pm uri sd h).state.d.lookup u = some a →
      ∃ h1, getAttr a n (Cim.read env src' pm uri sd h).state.heap = .err .attributeError h1)
    (mod : (Cim.read env src' pm uri sd h).error? ≠ some .unmodelled) :
    SameR (Cim.read env src' pm uri sd h) (Cim.read env src pm uri sd h) := by
  have hv' : voc env t' pm uri = some v := by
    rw [← hv]; unfold voc; rw [I.lead]
  obtain ⟨⟨nm, htag, hnm⟩, noId⟩ := prop
  have hid : (v.cfg env.fuel).idOf p.attrs = none := idOf_none.2 noId
  have hob := leaf_objs (f := env.fuel) leaf noId
  obtain ⟨k1, k2, ds, tg, as, x, ks, ks', hk, hk', ⟨cls, dt, di⟩, hin, hins⟩ := I.inside
  obtain ⟨A, B, a1, a2⟩ := ins_evs hins
  have e1 : Elem.tailEvs t = (Elem.evsNAll k1 ++ .start tg as :: A) ++
      (B ++ .fin false tg as x :: (Elem.evsNAll k2 ++ [.fin true t.tag t.attrs t.text])) := by
    obtain ⟨ds', tg', as', x', kst⟩ := t
    simp only [Elem.kids] at hk
    subst hk
    simp only [Elem.tailEvs, evsNAll_append, Elem.evsNAll, Elem.evsN, a1, List.append_assoc, List.cons_append, List.nil_append]
    rfl
  have e2 : Elem.tailEvs t' = (Elem.evsNAll k1 ++ .start tg as :: A) ++ (Elem.evsN false p ++
      (B ++ .fin false tg as x :: (Elem.evsNAll k2 ++ [.fin true t.tag t.attrs t.text]))) := by
    rw [← I.tag, ← I.attrs, ← I.text]
    obtain ⟨ds', tg', as', x', kst⟩ := t'
    simp only [Elem.kids] at hk'
    subst hk'
    simp only [Elem.tailEvs, evsNAll_append, Elem.evsNAll, Elem.evsN, a2, List.append_assoc, List.cons_append, List.nil_append]
    rfl
  have hb : (v.cfg env.fuel).inBase tg = true := inBase_iff.2 ⟨cls, dt⟩
  have hi : (v.cfg env.fuel).idOf as = some u := idOf_iff (e := .mk ds tg as x ks).2 di
  have quiet : ∀ ev ∈ A, NoSubj (v.cfg env.fuel) ev := by
    intro ev hev
    refine noSubj_evsAll ks ?_ ev (by rw [a1]; exact List.mem_append_left _ hev)
    intro e he
    cases hs : v.subj? e with
    | none => rfl
    | some u' =>
      unfold Voc.subj? at hs
      split at hs
      · rename_i hn
        obtain ⟨n, hn⟩ := Option.isSome_iff_exists.1 hn
        exact absurd ⟨Voc.name?_iff.1 hn, Voc.id?_iff.1 hs⟩ (hin e he n u')
      · cases hs
  refine (read_skip D D' I.toInsDoc hv (by rw [hob]; exact Alike.pure _) e1 e2 ?_).resolve_left mod
  intro s1 i s2 hr h2
  right
  have hd1 : (Cim.read env src' pm uri sd h).state.d = s1.d := (read_end D' hv' hr).1
  have hh1 := (read_end D' hv' hr).2
  have hx : Ext s2.heap (Cim.read env src' pm uri sd h).state.heap := by
    rw [hh1, e2, loop2_append, bind_of_ok h2]
    exact loop2_ext _ _ _ _
  have hx1 : Ext s1.heap s2.heap := by
    have := run2_ext (v.cfg env.fuel) (Elem.evsNAll k1 ++ .start tg as :: A) none s1
    rw [h2] at this; exact this
  -- the position
  have hpos : i = s1.d.lookup u := by
    rw [run2_append] at h2
    obtain ⟨j, s3, h3, h4⟩ := bind_ok_inv h2
    have hj := run2_outAll k1 h3
    subst hj
    obtain ⟨j, s4, h5, h6⟩ := bind_ok_inv
      (show (step2 (v.cfg env.fuel) none (.start tg as) >>= fun i => run2 (v.cfg env.fuel) i A) s3 = .ok i s2 from h4)
    have := run2_stay quiet h6
    subst this
    have hd3 : s3.d = s1.d := by
      have := run2_d (v.cfg env.fuel) (Elem.evsNAll k1) none s1
      rw [h3] at this; exact this
    unfold step2 at h5
    dsimp only at h5
    rw [if_pos hb, hi] at h5
    dsimp only at h5
    rw [pybind_eq] at h5
    simp only [Py.get] at h5
    rw [← hd3]
    cases hl : s3.d.lookup u with
    | none => rw [hl] at h5; cases h5; rfl
    | some a => rw [hl] at h5; cases h5; rfl
  obtain ⟨dsp, tgp, asp, xp, ksp⟩ := p
  cases leaf
  rw [run2_leaf _ (show (v.cfg env.fuel).idOf asp = none from hid)]
  cases i with
  | none => exact SameR.refl _
  | some a =>
    dsimp only
    rw [if_pos (show (v.cfg env.fuel).inBase tgp = true from inBase_iff.2 ⟨nm, htag⟩)]
    have ha : s1.d.lookup u = some a := hpos.symm
    have hlt := pass1_below hr E ha
    obtain ⟨h1, hg⟩ := lacks a (by rw [hd1]; exact ha)
    have hab := getAttr_absent_ext hx (Nat.lt_of_lt_of_le hlt hx1.next) hg
    have hname : ((v.cfg env.fuel).item a tgp asp xp).name = n := by
      show Str.afterLast '.' ((v.cfg env.fuel).local tgp) = n
      rw [show tgp = v.tagOf nm from htag, local_tagOf, hnm]
    have := handleItem_absent (v.cfg env.fuel) (it := (v.cfg env.fuel).item a tgp asp xp) (s := s2) (by rw [hname]; exact hab)
    rw [bind_of_ok this]
    exact ⟨rfl, rfl, rfl⟩

/-- Number noted for a class and an attribute. -/
def noted (g : List ((Str × Str) × Nat)) (k : Str × Str) : Nat := (g.lookup k).getD 0

theorem noted_bump (k k' : Str × Str) : ∀ (g : List ((Str × Str) × Nat)),
    noted (bump g k) k' = noted g k' + if k' = k then 1 else 0
  | [] => by
    by_cases h : k' = k
    · subst h; simp [bump, noted]
    · have : (k' == k) = false := by simpa using h
      simp [bump, noted, List.lookup_cons, this, h]
  | (k1, n) :: g => by
    have ih := noted_bump k k' g
    unfold bump
    by_cases h1 : k1 = k
    · subst h1
      by_cases h : k' = k1
      · subst h; simp [noted]
      · have : (k' == k1) = false := by simpa using h
        simp [noted, List.lookup_cons, this, h]
    · rw [if_neg h1]
      by_cases h : k' = k1
      · subst h; simp [noted, h1]
      · have : (k' == k1) = false := by simpa using h
        simp only [noted, List.lookup_cons, this] at ih ⊢
        exact ih

theorem mem_noted {k : Str × Str} : ∀ {g : List ((Str × Str) × Nat)}, 0 < noted g k → (k, noted g k) ∈ g
  | [], h => by simp [noted] at h
  | (k1, n) :: g, h => by
    by_cases h1 : k = k1
    · subst h1; simp [noted]
    · have : (k == k1) = false := by simpa using h1
      simp only [noted, List.lookup_cons, this] at h ⊢
      exact .tail _ (mem_noted (g := g) h)

theorem handleItem_noted (g : Cfg) (it : Item) (s : RState) (k : Str × Str) :
    noted s.grouped k ≤ noted (handleItem g it s).state.grouped k := by
  unfold handleItem
  cases getAttr it.obj it.name s.heap with
  | err e _ =>
    cases e <;> first | exact Nat.le_refl _ |
      (show noted s.grouped k ≤ noted (bump s.grouped _) k; rw [noted_bump]; exact Nat.le_add_right _ _)
  | ok cur _ =>
    dsimp only
    cases it.res with
    | none =>
      dsimp only
      rw [exceptTypeError_state, (setLiteral_log _ _ _ _ _ s).2]; exact Nat.le_refl _
    | some r =>
      cases r with
      | nil => exact Nat.le_refl _
      | cons c cs =>
        dsimp only
        split
        · unfold setReference
          rw [pybind_eq]
          simp only [Py.get]
          cases s.d.lookup cs with
          | none => exact Nat.le_refl _
          | some b =>
            cases cur <;> first | exact Nat.le_refl _ | (dsimp only; rw [(liftH_log _ s).2]; exact Nat.le_refl _)
        · unfold setEnum
          cases Str.rsplit1 '.' (c :: cs) with
          | none => exact Nat.le_refl _
          | some w => dsimp only; rw [(liftH_log _ s).2]; exact Nat.le_refl _

/-- The object of the item is of a class called `k.1` and has no attribute `k.2`, which the item is about. -/
def lacksB (h : Heap) (k : Str × Str) (it : Item) : Bool :=
  it.name == k.2 && clsName h it.obj == k.1 &&
    match getAttr it.obj it.name h with
    | .err .attributeError _ => true
    | _ => false

theorem loop2_noted (g : Cfg) (hf : Heap) (k : Str × Str) : ∀ (es : List Ev) (i : Option Addr) (s s' : RState),
    loop2 g i es s = .ok ⟨⟩ s' → Ext s'.heap hf → (∀ it ∈ assigns g s.d i es, it.obj < s.heap.next) →
    noted s.grouped k + (assigns g s.d i es).countP (lacksB hf k) ≤ noted s'.grouped k := by
  intro es
  induction es with
  | nil => intro i s s' h _ _; cases h; cases i <;> exact Nat.le_refl _
  | cons e es ih =>
    intro i s s' hr hf' hb
    obtain ⟨i', s1, h1, h2⟩ := bind_ok_inv (show (step2 g i e >>= fun i => loop2 g i es) s = .ok ⟨⟩ s' from hr)
    have hd := step2_d g i e s
    have hx := step2_ext g i e s
    rw [h1] at hd hx
    have hd : s1.d = s.d := hd
    have hx : Ext s.heap s1.heap := hx
    have next : s1.grouped = s.grouped → assigns g s.d i (e :: es) = assigns g s.d i' es →
        noted s.grouped k + (assigns g s.d i (e :: es)).countP (lacksB hf k) ≤ noted s'.grouped k := by
      intro hg ha
      have := ih i' s1 s' h2 hf' (by
        rw [hd, ← ha]; intro it hit; exact Nat.lt_of_lt_of_le (hb it hit) hx.next)
      rw [hd, hg] at this
      rw [ha]; exact this
    cases i with
    | none =>
      cases e with
      | ns => cases h1; exact next rfl rfl
      | fin => cases h1; exact next rfl rfl
      | start tag as =>
        unfold step2 at h1
        dsimp only at h1
        split at h1
        · rename_i hbs
          cases hi : g.idOf as with
          | none => rw [hi] at h1; cases h1; exact next rfl (by simp [assigns, hbs, hi])
          | some u =>
            rw [hi] at h1
            dsimp only at h1
            rw [pybind_eq] at h1
            simp only [Py.get] at h1
            cases hl : s.d.lookup u with
            | none => rw [hl] at h1; cases h1; exact next rfl (by simp [assigns, hbs, hi, hl])
            | some a => rw [hl] at h1; cases h1; exact next rfl (by simp [assigns, hbs, hi, hl])
        · rename_i hbs
          cases h1; exact next rfl (by simp [assigns, hbs])
    | some a =>
      cases e with
      | ns => cases h1; exact next rfl rfl
      | start => cases h1; exact next rfl rfl
      | fin r tag as x =>
        unfold step2 at h1
        dsimp only at h1
        split at h1
        · rename_i hbs
          cases hi : g.idOf as with
          | some u => rw [hi] at h1; cases h1; exact next rfl (by simp [assigns, hbs, hi])
          | none =>
            rw [hi] at h1
            dsimp only at h1
            rw [handleProp_item] at h1
            obtain ⟨_, s2, h3, h4⟩ := bind_ok_inv h1
            cases h4
            have ha : assigns g s.d (some a) (.fin r tag as x :: es) = g.item a tag as x :: assigns g s.d (some a) es := by
              simp [assigns, hbs, hi]
            rw [ha] at hb ⊢
            have hd : s1.d = s.d := hd
            have hx : Ext s.heap s1.heap := hx
            have rest := ih (some a) s1 s' h2 hf' (by
              rw [hd]; intro it hit; exact Nat.lt_of_lt_of_le (hb it (.tail _ hit)) hx.next)
            rw [hd] at rest
            have mono := handleItem_noted g (g.item a tag as x) s k
            rw [h3] at mono
            have mono : noted s.grouped k ≤ noted s1.grouped k := mono
            rw [List.countP_cons]
            by_cases hl : lacksB hf k (g.item a tag as x) = true
            · rw [if_pos hl]
              have xf : Ext s.heap hf := by
                have k4 := loop2_ext g (some a) es s1
                rw [h2] at k4
                exact (hx.trans k4).trans hf'
              unfold lacksB at hl
              simp only [Bool.and_eq_true, beq_iff_eq] at hl
              obtain ⟨⟨l1, l2⟩, l3⟩ := hl
              have hlt := hb _ (List.mem_cons_self ..)
              have hab : getAttr (g.item a tag as x).obj (g.item a tag as x).name s.heap = .err .attributeError s.heap := by
                cases hg : getAttr (g.item a tag as x).obj (g.item a tag as x).name hf with
                | ok w h0 => rw [hg] at l3; cases l3
                | err e h0 =>
                  cases e <;> first | exact getAttr_absent_ext xf hlt hg | (rw [hg] at l3; cases l3)
              have h5 := handleItem_absent g (it := g.item a tag as x) (s := s) hab
              rw [h3] at h5; cases h5
              have hk : (((s.heap.cls (g.item a tag as x).obj).map Cls.name).getD [], (g.item a tag as x).name) = k := by
                have : clsName hf (g.item a tag as x).obj = clsName s.heap (g.item a tag as x).obj := by
                  unfold clsName; rw [xf.cls _ hlt]
                rw [← Prod.eta k, ← l1, ← l2, this]; rfl
              have h6 := noted_bump (((s.heap.cls (g.item a tag as x).obj).map Cls.name).getD [], (g.item a tag as x).name) k s.grouped
              rw [if_pos hk.symm] at h6
              dsimp only at rest
              omega
            · rw [if_neg hl]
              omega
        · rename_i hbs
          cases h1; exact next rfl (by simp [assigns, hbs])

/-- The statement is about the attribute `n` of an object of a class called `cn`, and that object has no such
attribute after the call. -/
def Lacks (s : RState) (cn n : Str) (st : Stmt) : Bool :=
  st.attr == n && match s.d.lookup st.subj with
    | none => false
    | some a => clsName s.heap a == cn && match getAttr a n s.heap with
      | .err .attributeError _ => true
      | _ => false

/-- C34: attributes that an object does not have after the call are counted in the log, under the name of
its class: the number is at least that of the statements about them. (For the exact number see C65.) -/
theorem C34_counted {env : Env} {src : Str} {t : Elem} (D : IsDoc src t) {pm uri sd} {h : Heap} {v : Voc} {s : RState}
    (R : Cim.read env src pm uri sd h = .ok ⟨⟩ s) (hv : voc env t pm uri = some v) (E : Exists h sd)
    (F : v.FlatAll t.kids) {cn n : Str} (some : ∃ st ∈ v.says t, Lacks s cn n st) :
    ∃ k, (v.says t).countP (Lacks s cn n) ≤ k ∧ .noAttr cn n k ∈ s.log := by
  unfold Cim.read at R
  rw [cimread_doc D] at R
  obtain ⟨g, s0, h1, R⟩ := bind_ok_inv R
  obtain ⟨_, s1, h2, R⟩ := bind_ok_inv R
  obtain ⟨_, s4, h3, hflush⟩ := bind_ok_inv R
  have hc := configure_doc D env pm uri { heap := h, d := sd.getD [] }
  rw [hv] at hc
  obtain ⟨l, hc⟩ := hc
  rw [hc] at h1; cases h1
  have hd4 : s4.d = s1.d := by
    have := loop2_d (v.cfg env.fuel) (Elem.tailEvs t) none s1
    rw [h3] at this; exact this
  unfold flushLog Py.modify at hflush
  cases hflush
  have hb : ∀ it ∈ assigns (v.cfg env.fuel) s1.d none (Elem.tailEvs t), it.obj < s1.heap.next := by
    rw [assigns_doc v env.fuel s1.d t F]
    intro it hit
    obtain ⟨st, -, hs⟩ := List.mem_filterMap.1 hit
    unfold Stmt.item at hs
    obtain ⟨a, ha, rfl⟩ := Option.map_eq_some_iff.1 hs
    exact pass1_below h2 E ha
  have key := loop2_noted (v.cfg env.fuel) s4.heap (cn, n) _ _ _ _ h3 (Ext.refl _) hb
  rw [assigns_doc v env.fuel s1.d t F] at key
  have cnt : ∀ L : List Stmt, (L.filterMap (Stmt.item s1.d)).countP (lacksB s4.heap (cn, n)) =
      L.countP (Lacks { s4 with log := s4.log ++ s4.grouped.map fun p => .noAttr p.1.1 p.1.2 p.2, grouped := [] } cn n) := by
    intro L
    induction L with
    | nil => rfl
    | cons st L ih =>
      have hL : Lacks { s4 with log := s4.log ++ s4.grouped.map fun p => .noAttr p.1.1 p.1.2 p.2, grouped := [] } cn n st =
          ((Stmt.item s1.d st).map (lacksB s4.heap (cn, n))).getD false := by
        unfold Lacks Stmt.item lacksB
        rw [hd4]
        cases s1.d.lookup st.subj with
        | none => simp
        | some a =>
          by_cases hn : st.attr = n
          · subst hn; simp
          · have : (st.attr == n) = false := by simpa using hn
            simp [this]
      rw [List.filterMap_cons, List.countP_cons, hL]
      cases Stmt.item s1.d st with
      | none => simpa using ih
      | some it => simp only [List.countP_cons, ih]; rfl
  rw [cnt] at key
  have pos : 0 < (v.says t).countP (Lacks { s4 with log := s4.log ++ s4.grouped.map fun p => .noAttr p.1.1 p.1.2 p.2, grouped := [] } cn n) :=
    List.countP_pos_iff.2 some
  have key := Nat.le_trans (Nat.le_add_left _ _) key
  exact ⟨noted s4.grouped (cn, n), key,
    List.mem_append_right _ (List.mem_map.2 ⟨_, mem_noted (Nat.lt_of_lt_of_le pos key), rfl⟩)⟩

theorem instantiate_grows (g t u) (s : RState) : Grows s (instantiate g t u s).state := by
  unfold instantiate
  cases g.pm with
  | none => exact Grows.refl s
  | some m =>
    dsimp only
    cases m.lookup t with
    | none => exact ⟨fun l hl => List.mem_append_left _ hl, fun k n hk => ⟨n, Nat.le_refl _, hk⟩⟩
    | some c =>
      dsimp only
      have hl := liftH_log (construct g.fuel c [(c!"UUID", .str u)]) s
      rw [pybind_eq]
      cases hr : liftH (construct g.fuel c [(c!"UUID", .str u)]) s with
      | ok a s1 => rw [hr] at hl; exact Grows.of_eq hl.1 hl.2
      | err e s1 => rw [hr] at hl; exact Grows.of_eq hl.1 hl.2

theorem pass1_unknown {g : Cfg} {m : PkgMap} (hm : g.pm = some m) {cls u : Str} (hn : m.lookup cls = none) :
    ∀ (L : List (Str × Str)) {s s' : RState}, forEach (fun p : Str × Str => instantiate g p.1 p.2) L s = .ok ⟨⟩ s' →
      Grows s s' ∧ ((cls, u) ∈ L → .noModule cls u ∈ s'.log)
  | [], s, s', h => by cases h; exact ⟨Grows.refl _, nofun⟩
  | p :: L, s, s', h => by
    obtain ⟨_, s1, h1, h2⟩ := bind_ok_inv
      (show (instantiate g p.1 p.2 >>= fun _ => forEach (fun p : Str × Str => instantiate g p.1 p.2) L) s = .ok ⟨⟩ s' from h)
    have g1 := instantiate_grows g p.1 p.2 s
    rw [h1] at g1
    have g1 : Grows s s1 := g1
    obtain ⟨g2, ih⟩ := pass1_unknown hm hn (cls := cls) (u := u) L h2
    refine ⟨g1.trans g2, fun hmem => ?_⟩
    cases hmem with
    | tail _ hmem => exact ih hmem
    | head =>
      unfold instantiate at h1
      rw [hm] at h1
      dsimp only at h1
      rw [hn] at h1
      cases h1
      exact g2.log _ (List.mem_append_right _ (.head _))

/-- C34: after a successful call the log has a message for each element of a class that is not in the
package map. -/
theorem C34_reported {env : Env} {src : Str} {t : Elem} (D : IsDoc src t) {pm uri sd} {h : Heap} {v : Voc} {s : RState}
    (R : Cim.read env src pm uri sd h = .ok ⟨⟩ s) (hv : voc env t pm uri = some v) {m : PkgMap} (hm : v.pm = some m)
    {e : Elem} (he : e ∈ t.inst) {cls u : Str} (hd : v.Describes e cls u) (unknown : m.lookup cls = none) :
    .noModule cls u ∈ s.log := by
  unfold Cim.read at R
  rw [cimread_doc D] at R
  obtain ⟨g, s0, h1, R⟩ := bind_ok_inv R
  obtain ⟨_, s1, h2, R⟩ := bind_ok_inv R
  obtain ⟨_, s4, h3, hflush⟩ := bind_ok_inv R
  have hc := configure_doc D env pm uri { heap := h, d := sd.getD [] }
  rw [hv] at hc
  obtain ⟨l, hc⟩ := hc
  rw [hc] at h1; cases h1
  unfold flushLog Py.modify at hflush
  cases hflush
  have k1 := (pass1_unknown (g := v.cfg env.fuel) hm unknown (u := u) _ h2).2 (mem_objs.2 ⟨e, he, hd⟩)
  have k2 := loop2_grows (v.cfg env.fuel) (Elem.tailEvs t) none s1
  rw [h3] at k2
  exact List.mem_append_left _ (k2.log _ k1)

end Props
end Verif
