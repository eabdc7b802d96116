import Verif.Props.RoundFits
import Verif.Props.Reader
/-
Writing a model and reading it back: C49, C50, C51.
-/
namespace Verif
namespace Props
open Cim Py Hp Spec Xml Gen

/-- The model `d` (in the heap `h`) and the result `s` of reading, with heap `h0` before: -/
structure Back (h : Heap) (d : Dict) (h0 : Heap) (s : RState) : Prop where
  /-- the same keys in the same order -/
  keys : s.d.map (·.1) = d.map (·.1)
  /-- new objects, different ones for different keys -/
  new : ∀ u a', s.d.lookup u = some a' → h0.next ≤ a'
  inj : ∀ u u' a', s.d.lookup u = some a' → s.d.lookup u' = some a' → u = u'
  /-- of the same class -/
  cls : ∀ u a a', d.lookup u = some a → s.d.lookup u = some a' → s.heap.cls a' = h.cls a
  uuid : ∀ u a', s.d.lookup u = some a' → attr s.heap a' c!"UUID" = some (.str u)
  /-- with equal attributes -/
  attrs : ∀ u a a' c, d.lookup u = some a → s.d.lookup u = some a' → h.cls a = some c →
    ∀ e ∈ c.dropLast, ∀ p ∈ e.attrs, ∃ v v', attr h a p.1 = some v ∧ attr s.heap a' p.1 = some v' ∧ BackVal p.2 v v'
  /-- a to-one reference is None where it was None, -/
  none : ∀ u a a' c, d.lookup u = some a → s.d.lookup u = some a' → h.cls a = some c →
    ∀ e ∈ c.dropLast, ∀ r ∈ e.refs, r.kind.isMany = false → attr h a r.name = some .none →
      attr s.heap a' r.name = some .none
  /-- leads to the object of the same identifier where it led to an object of the model, -/
  one : ∀ u a a' c, d.lookup u = some a → s.d.lookup u = some a' → h.cls a = some c →
    ∀ e ∈ c.dropLast, ∀ r ∈ e.refs, r.kind.isMany = false → ∀ w b b', attr h a r.name = some (.obj b) →
      d.lookup w = some b → s.d.lookup w = some b' → attr s.heap a' r.name = some (.obj b')
  /-- and is None where it led to another object. -/
  left : ∀ u a a' c, d.lookup u = some a → s.d.lookup u = some a' → h.cls a = some c →
    ∀ e ∈ c.dropLast, ∀ r ∈ e.refs, r.kind.isMany = false → ∀ b, attr h a r.name = some (.obj b) →
      (∀ w, d.lookup w ≠ some b) → attr s.heap a' r.name = some .none
  /-- A collection opposite a to-one reference has the members it had in the model and no others, -/
  many : ∀ u a a' n i, d.lookup u = some a → s.d.lookup u = some a' → ends h a n = some (.many2one, i) →
    ∀ b', b' ∈ (view s.heap).many a' n ↔ ∃ w b, d.lookup w = some b ∧ s.d.lookup w = some b' ∧ b ∈ (view h).many a n
  /-- none of them twice; -/
  nodup : ∀ u a' n, s.d.lookup u = some a' → ((view s.heap).many a' n).Nodup
  /-- a many-to-many collection is empty. -/
  m2m : ∀ u a a' n i, d.lookup u = some a → s.d.lookup u = some a' → ends h a n = some (.many2many, i) →
    (view s.heap).many a' n = []
  /-- The objects read are consistent. -/
  live : Live s.heap

/-! ### Statements about one attribute -/

theorem filter_entry {f : Str × Addr → List Stmt} (hf : ∀ p st, st ∈ f p → st.subj = p.1) {P : Stmt → Bool} {u : Str}
    (hP : ∀ st, P st = true → st.subj = u) : ∀ {d : Dict}, (d.map (·.1)).Nodup → ∀ {a}, (u, a) ∈ d →
    (d.flatMap f).filter P = (f (u, a)).filter P
  | p :: d, k, a, hu => by
    rw [List.map_cons, List.nodup_cons] at k
    rw [List.flatMap_cons, List.filter_append]
    have skip : ∀ q, q.1 ≠ u → (f q).filter P = [] := fun q hq => List.filter_eq_nil_iff.2 fun st hst hp =>
      hq (by rw [← hf q st hst, hP st hp])
    rcases List.mem_cons.1 hu with rfl | hu
    · have : (d.flatMap f).filter P = [] := by
        rw [List.filter_eq_nil_iff]
        intro st hst hp
        obtain ⟨q, hq, hst⟩ := List.mem_flatMap.1 hst
        refine k.1 (List.mem_map.2 ⟨q, hq, ?_⟩)
        rw [← hf q st hst, hP st hp]
      rw [this, List.append_nil]
    · rw [skip p ?_, List.nil_append]
      · exact filter_entry hf hP k.2 hu
      · intro hh
        exact k.1 (List.mem_map.2 ⟨_, hu, hh.symm⟩)

theorem foldl_const {den : Str → Option Addr} {st : Stmt} (hid : ∀ v, st.apply den (st.apply den v) = st.apply den v) :
    ∀ {L : List Stmt}, (∀ x ∈ L, x = st) → L ≠ [] → ∀ v, L.foldl (Stmt.apply den) v = st.apply den v
  | [], _, h, _ => absurd rfl h
  | [x], h, _, v => by rw [h x (.head _)]; rfl
  | x :: y :: L, h, _, v => by
    have hx := h x (.head _)
    subst hx
    rw [List.foldl_cons, foldl_const hid (fun z hz => h z (.tail _ hz)) (by simp)]
    exact hid v

section
variable {m : PkgMap} {h : Heap} {d : Dict} (M : Model m h d)
include M

theorem Model.about {u a c} (hu : (u, a) ∈ d) (hc : h.cls a = some c) (n : Str) :
    aboutId u n ((vW m).says (docElem h d)) = ((items h a c).filter fun i => i.attr = n).map (stmtOf u) := by
  unfold aboutId
  rw [M.says, filter_entry (u := u) (fun p st hst => ?_) (fun st hp => by simp at hp; exact hp.1) M.keys hu]
  · unfold sts
    dsimp only
    rw [hc, Option.getD_some, List.filter_map]
    congr 1
    refine List.filter_congr fun i _ => ?_
    rw [Bool.eq_iff_iff]
    simp [stmtOf, decide_eq_true_eq (p := i.attr = n)]
    try exact decide_eq_true_iff
  · obtain ⟨i, -, rfl⟩ := List.mem_map.1 hst
    rfl

/-- Statements about an attribute come from its declaration. -/
theorem Model.about_slot {u a c} (hu : (u, a) ∈ d) (hc : h.cls a = some c) {e} (he : e ∈ c.dropLast) {p} (hp : p ∈ e.attrs)
    {s} (hs : (e, s) ∈ slots c) (hn : s.name = p.1) :
    aboutId u p.1 ((vW m).says (docElem h d)) = (s.items h a e).map (stmtOf u) := by
  have R := M.round hu hc
  rw [M.about hu hc]
  congr 1
  rw [items_slots, ← (filter_key (κ := slotKey) (f := fun s => s.2.items h a s.1) (fun x i hi => slot_items hi)
    (slots_nodup R.names) (e.name, p.1)).1 (e, s) hs (by rw [← hn]; rfl)]
  refine List.filter_congr fun i hi => ?_
  rw [decide_eq_decide]
  constructor
  · intro ha
    obtain ⟨⟨e', s'⟩, hs', hi⟩ := List.mem_flatMap.1 hi
    have hk := slot_items hi
    obtain ⟨k1, k2⟩ := Prod.mk.inj hk
    dsimp only at k1 k2
    rw [ha] at k2
    obtain ⟨he', h3⟩ := mem_slots hs'
    rcases h3 with h3 | ⟨r, h3, h4, h5⟩
    · obtain ⟨p', hp', h6⟩ := List.mem_map.1 h3
      obtain ⟨rfl, -⟩ := R.once e he p hp e' he' p' hp' (by rw [h6, ← k2])
      rw [k1, ha]
    · have := findRef_none (R.attrs e he p hp).1
      refine absurd ?_ this
      rw [k2, h5]
      exact List.mem_flatMap.2 ⟨e', List.dropLast_subset c he', List.mem_map.2 ⟨r, h3, rfl⟩⟩
  · intro hh
    exact (Prod.mk.inj hh).2

theorem Model.about_uuid {u a c} (hu : (u, a) ∈ d) (hc : h.cls a = some c) :
    aboutId u uuidN ((vW m).says (docElem h d)) = [] := by
  have R := M.round hu hc
  rw [M.about hu hc, List.map_eq_nil_iff, List.filter_eq_nil_iff]
  intro i hi
  rw [items_slots] at hi
  obtain ⟨⟨e, s⟩, hs, hi⟩ := List.mem_flatMap.1 hi
  have k2 := (Prod.mk.inj (slot_items hi)).2
  obtain ⟨he, h3⟩ := mem_slots hs
  simp only [decide_eq_true_eq]
  rw [k2]
  rcases h3 with h3 | ⟨r, h3, h4, h5⟩
  · obtain ⟨p, hp, h6⟩ := List.mem_map.1 h3
    show s.name ≠ uuidN
    rw [← h6]
    exact (R.attrs e he p hp).2.2.1
  · show s.name ≠ uuidN
    rw [h5]
    exact (R.ident.free e (List.dropLast_subset c he) r h3).1

/-- Statements about a reference. -/
theorem Model.about_ref {u a c} (hu : (u, a) ∈ d) (hc : h.cls a = some c) {e} (he : e ∈ c.dropLast) {r : RefDef}
    (hr : r ∈ e.refs) (hm : r.kind.isMany = false) :
    (attr h a r.name = some .none ∧ aboutId u r.name ((vW m).says (docElem h d)) = []) ∨
    (∃ b w, attr h a r.name = some (.obj b) ∧ attr h b c!"UUID" = some (.str w) ∧ (∀ b', (w, b') ∈ d → b' = b) ∧
      aboutId u r.name ((vW m).says (docElem h d)) ≠ [] ∧
      ∀ st ∈ aboutId u r.name ((vW m).says (docElem h d)), st = ⟨u, r.name, some ('#' :: w), none⟩) := by
  have R := M.round hu hc
  have hall : ∀ i ∈ items h a c, i.attr = r.name → ∃ e', i ∈ refItem h a e' r.name := by
    intro i hi ha
    rw [items_slots] at hi
    obtain ⟨⟨e', s⟩, hs, hi⟩ := List.mem_flatMap.1 hi
    have k2 := (Prod.mk.inj (slot_items hi)).2
    dsimp only at k2
    have noattr : ∀ p ∈ e'.attrs, e' ∈ c.dropLast → p.1 ≠ r.name := fun p hp he' hh => by
      have := findRef_none (R.attrs e' he' p hp).1
      refine absurd ?_ this
      rw [hh]
      exact List.mem_flatMap.2 ⟨e, List.dropLast_subset c he, List.mem_map.2 ⟨r, hr, rfl⟩⟩
    obtain ⟨he', ⟨p, hp, hn, rfl⟩ | ⟨p, hp, hn, rfl⟩ | ⟨r', hr', hm', rfl⟩⟩ := slot_cases hs
    · exact absurd (k2.symm.trans ha) (noattr p hp he')
    · exact absurd (k2.symm.trans ha) (noattr p hp he')
    · have hn : r'.name = r.name := k2.symm.trans ha
      exact ⟨e', by rw [← hn]; exact hi⟩
  rcases M.ref hu hc he hr hm with ⟨h1, h2⟩ | ⟨b, w, rd, h1, h2, h3, h4, -⟩
  · left
    refine ⟨h1, ?_⟩
    rw [M.about hu hc, List.map_eq_nil_iff, List.filter_eq_nil_iff]
    intro i hi ha
    obtain ⟨e', hi'⟩ := hall i hi (by simpa using ha)
    unfold refItem at hi'
    rw [h1] at hi'
    cases hi'
  · right
    refine ⟨b, w, h1, h3, h4, ?_, ?_⟩
    · rw [M.about hu hc]
      intro hh
      rw [List.map_eq_nil_iff, List.filter_eq_nil_iff] at hh
      refine hh ⟨e.name, r.name, none, some ('#' :: w)⟩ ?_ (by simp)
      rw [items_slots]
      refine List.mem_flatMap.2 ⟨(e, .ref r.name), slot_ref he hr hm, ?_⟩
      show _ ∈ refItem h a e r.name
      rw [h2]
      exact List.mem_singleton_self _
    · intro st hst
      rw [M.about hu hc] at hst
      obtain ⟨i, hi, rfl⟩ := List.mem_map.1 hst
      obtain ⟨hi, ha⟩ := List.mem_filter.1 hi
      obtain ⟨e', hi'⟩ := hall i hi (by simpa using ha)
      unfold refItem uuidOf at hi'
      rw [h1] at hi'
      dsimp only at hi'
      rw [h3] at hi'
      cases List.mem_singleton.1 hi'
      rfl

/-! ### The result -/

variable {h0 : Heap} {s : RState}

omit M in
theorem one_attr (L : Live s.heap) {a n k i} (he : ends s.heap a n = some (k, i)) (hk : k.isMany = false) :
    attr s.heap a n = some .none ∨ ∃ b, attr s.heap a n = some (.obj b) := by
  obtain ⟨v, hv⟩ := Option.isSome_iff_exists.1 (L.inited a n k i he)
  have ha : attr s.heap a n = some v := by
    unfold attr
    rw [getAttr_end he]
    simp [rawGet, hv]
  rcases L.shape.one a n k i v he hk hv with rfl | ⟨b, rfl, -⟩
  · exact .inl ha
  · exact .inr ⟨b, ha⟩

theorem Model.links (N : Means (vW m) (docElem h d) h0 [] s) {u a a' u' b b' n k i} (hu : (u, a) ∈ d) (ha : s.d.lookup u = some a')
    (hu' : (u', b) ∈ d) (hb : s.d.lookup u' = some b') (he : ends h a n = some (k, i)) (hk : k ≠ .many2many) :
    Linked (view s.heap) a' n b' ↔ Linked (view h) a n b := by
  have nob : ∀ u n u', ¬ (vW m).before (docElem h d) h0 [] u n u' := by
    rintro u n u' ⟨-, -, x, y, h1, -⟩
    cases h1
  have uniq : ∀ {u a u' b n k i}, (u, a) ∈ d → (u', b) ∈ d → ends h a n = some (k, i) → k.isMany = false → 
      Linked (view h) a n b → (vW m).Only (docElem h d) h0 [] ((vW m).says (docElem h d)) u n u' := by
    intro u a u' b n k i hu hu' he hk hl
    refine ⟨fun u'' hs => ?_, fun _ x y hx => by cases hx⟩
    have hX : (((vW m).ctx (docElem h d) h0 []).cls u'').isSome := by
      rcases hs with ⟨st, -, G⟩ | ⟨st, -, k', i', -, G⟩
      · exact G.2.2.2.2
      · have := G.2.2.2.1
        unfold Ctx.endOf at this
        cases hx : ((vW m).ctx (docElem h d) h0 []).cls u'' with
        | none => rw [hx] at this; cases this
        | some c => rfl
    obtain ⟨c, hX⟩ := Option.isSome_iff_exists.1 hX
    obtain ⟨b2, hb2, -⟩ := M.key_of h0 hX
    obtain ⟨k2, i2, h1, h2, h3⟩ := (M.said h0 hu hb2).1 hs
    have e1 : (view h).one a n = some b := by
      rcases hl with hl | hl
      · exact hl
      · rw [view_many_one he hk] at hl; cases hl
    have e2 : (view h).one a n = some b2 := by
      rcases h3 with hl | hl
      · exact hl
      · rw [view_many_one he hk] at hl; cases hl
    rw [e1] at e2
    obtain rfl := Option.some.inj e2
    rw [← M.uuid hb2, M.uuid hu']
  constructor
  · intro hl
    rcases N.links u a' u' b' n ha hb hl with hh | hh
    · exact absurd hh (nob _ _ _)
    · obtain ⟨-, -, -, -, h3⟩ := (M.said h0 hu hu').1 hh
      exact h3
  · intro hl
    refine N.linked u a' u' b' n ha hb ?_ (.inr ((M.said h0 hu hu').2 ⟨k, i, he, hk, hl⟩))
    intro k' i' he'
    rw [M.endOf h0 hu, he] at he'
    cases he'
    obtain ⟨h4, h5⟩ := linked_symm M.live.cons he hl
    exact ⟨fun hm => uniq hu hu' he hm hl, fun hm => uniq hu' hu h4 hm h5⟩

theorem Model.lookup_iff (N : Means (vW m) (docElem h d) h0 [] s) {u} : (s.d.lookup u).isSome ↔ (d.lookup u).isSome := by
  have := N.keys u
  rw [M.ctx_cls] at this
  cases hu : d.lookup u with
  | none => rw [hu] at this; simp [this.2 rfl]
  | some a =>
    obtain ⟨c, hc, -⟩ := M.cls u a (lookup_mem hu)
    rw [hu] at this
    simp only [Option.bind_some, hc, reduceCtorEq, iff_false] at this
    rw [Option.isSome_iff_ne_none]
    simpa using this

/-- Members of the new objects' collections and targets of their references are new. -/
theorem Model.closed (N : Means (vW m) (docElem h d) h0 [] s) (L0 : Live h0) {u a' n b'} (ha : s.d.lookup u = some a')
    (hl : Linked (view s.heap) a' n b') : ∃ u' b, (u', b) ∈ d ∧ s.d.lookup u' = some b' := by
  by_cases hb : ∃ u', s.d.lookup u' = some b'
  · obtain ⟨u', hb⟩ := hb
    have := (M.lookup_iff N (u := u')).1 (by rw [hb]; rfl)
    obtain ⟨b, hx⟩ := Option.isSome_iff_exists.1 this
    exact ⟨u', b, lookup_mem hx, hb⟩
  · have hl0 := N.outside a' b' n (.inr fun u' hh => hb ⟨u', hh⟩) hl
    exfalso
    have hn : ends h0 a' n = none := by
      have hfr : h0.cls a' = none := by
        have := (M.lookup_iff N (u := u)).1 (by rw [ha]; rfl)
        obtain ⟨a, hx⟩ := Option.isSome_iff_exists.1 this
        obtain ⟨c, hc, -⟩ := M.cls u a (lookup_mem hx)
        obtain ⟨a'', h1, h2, -⟩ := N.new u c (by rw [M.classOf, hx]; exact hc)
        rw [ha] at h1
        cases h1
        exact (L0.shape.fresh a' h2).1
      unfold ends; rw [hfr]
    rcases hl0 with hl0 | hl0
    · rw [view_one_none hn] at hl0; cases hl0
    · rw [view_many_none hn] at hl0; cases hl0

/-- Many-to-many collections come back empty. -/
theorem Model.m2m_back (N : Means (vW m) (docElem h d) h0 [] s) (L0 : Live h0) {u a a' n i} (hu : d.lookup u = some a)
    (ha : s.d.lookup u = some a') (he : ends h a n = some (.many2many, i)) : (view s.heap).many a' n = [] := by
  have hu' := lookup_mem hu
  cases hx : (view s.heap).many a' n with
  | nil => rfl
  | cons b' l =>
    exfalso
    have hl : Linked (view s.heap) a' n b' := .inr (by rw [hx]; exact .head _)
    obtain ⟨w, b, hw, hb'⟩ := M.closed N L0 ha hl
    rcases N.links u a' w b' n ha hb' hl with ⟨-, -, x, y, h1, -⟩ | hh
    · cases h1
    · obtain ⟨k, j, h1, h2, -⟩ := (M.said h0 hu' hw).1 hh
      rw [he] at h1
      cases h1
      exact h2 rfl

/-- The value of a to-one reference, except an alias. -/
theorem Model.ref_back (N : Means (vW m) (docElem h d) h0 [] s) (L0 : Live h0) {u a a' c} (hu : (u, a) ∈ d)
    (ha : s.d.lookup u = some a') (hc : h.cls a = some c) {e} (he : e ∈ c.dropLast) {r : RefDef} (hr : r ∈ e.refs)
    (hm : r.kind.isMany = false) {rd} (hf : c.findRef r.name = some rd) (hal : rd.kind ≠ .alias) :
    (attr h a r.name = some .none → attr s.heap a' r.name = some .none) ∧
    (∀ w b b', attr h a r.name = some (.obj b) → d.lookup w = some b → s.d.lookup w = some b' →
      attr s.heap a' r.name = some (.obj b')) ∧
    (∀ b, attr h a r.name = some (.obj b) → (∀ w, d.lookup w ≠ some b) → attr s.heap a' r.name = some .none) := by
  have R := M.round hu hc
  obtain ⟨rd', h1, h2, h3, h4⟩ := R.ref (List.dropLast_subset c he) hr hm
  rw [hf] at h1
  cases h1
  rcases h4 hal with hreg | hway
  · have hE := ends_of hc hf hreg
    have hE' : ends s.heap a' r.name = some (rd.kind, rd.far) := by
      rw [means_end N ha, M.endOf h0 hu, hE]
    have hk : rd.kind ≠ .many2many := by intro hh; rw [hh] at h2; cases h2
    have hone := one_attr N.live hE' h2
    have back : ∀ b', attr s.heap a' r.name = some (.obj b') → ∃ w b, (w, b) ∈ d ∧ s.d.lookup w = some b' ∧
        attr h a r.name = some (.obj b) := by
      intro b' hb
      have hl : Linked (view s.heap) a' r.name b' := .inl ((one_of hE' h2).2 hb)
      obtain ⟨w, b, hw, hb'⟩ := M.closed N L0 ha hl
      refine ⟨w, b, hw, hb', ?_⟩
      rcases (M.links N hu ha hw hb' hE hk).1 hl with hl | hl
      · exact (one_of hE h2).1 hl
      · rw [view_many_one hE h2] at hl; cases hl
    refine ⟨fun hv => ?_, fun w b b' hv hw hb' => ?_, fun b hv hw => ?_⟩
    · rcases hone with h5 | ⟨b', h5⟩
      · exact h5
      · obtain ⟨w, b, -, -, h6⟩ := back b' h5
        rw [hv] at h6; cases h6
    · have hl := (M.links N hu ha (lookup_mem hw) hb' hE hk).2 (.inl ((one_of hE h2).2 hv))
      rcases hl with hl | hl
      · exact (one_of hE' h2).1 hl
      · rw [view_many_one hE' h2] at hl; cases hl
    · rcases hone with h5 | ⟨b', h5⟩
      · exact h5
      · obtain ⟨w, b2, h6, -, h7⟩ := back b' h5
        rw [hv] at h7
        cases h7
        exact absurd (mem_lookup M.keys h6) (hw w)
  · have hval := N.value u a' c r.name .none ha (M.X_cls h0 hu hc) (fun hh => by rw [hf] at hh; cases hh)
      (by rw [M.X_val h0 hu hc, fresh_way hf hway])
    rcases M.about_ref hu hc he hr hm with ⟨h5, h6⟩ | ⟨b, w, h5, h6, h7, h8, h9⟩
    · rw [h6] at hval
      exact ⟨fun _ => hval, fun _ _ _ hv => (by rw [h5] at hv; cases hv), fun _ hv => (by rw [h5] at hv; cases hv)⟩
    · have happ : ∀ v, Stmt.apply (fun u => s.d.lookup u) v ⟨u, r.name, some ('#' :: w), none⟩ =
          match s.d.lookup w with
          | some b => if v = .none then .obj b else v
          | none => v := fun v => by
        simp only [Stmt.apply, Stmt.target, if_true]
        cases s.d.lookup w <;> rfl
      rw [foldl_const (fun v => ?_) h9 h8, happ] at hval
      · refine ⟨fun hv => (by rw [h5] at hv; cases hv), fun w' b2 b' hv hw hb' => ?_, fun b2 hv hw => ?_⟩
        · rw [h5] at hv
          cases hv
          have := M.uuid (lookup_mem hw)
          unfold uuidOf at this
          rw [h6] at this
          dsimp only at this
          subst this
          rw [hb'] at hval
          exact hval
        · rw [h5] at hv
          cases hv
          have : s.d.lookup w = none := by
            cases hx : s.d.lookup w with
            | none => rfl
            | some x =>
              have := (M.lookup_iff N (u := w)).1 (by rw [hx]; rfl)
              obtain ⟨y, hy⟩ := Option.isSome_iff_exists.1 this
              rw [h7 y (lookup_mem hy)] at hy
              exact absurd hy (hw w)
          rw [this] at hval
          exact hval
      · rw [happ, happ]
        cases s.d.lookup w with
        | none => rfl
        | some b =>
          dsimp only
          split
          · rw [if_neg (by simp)]
          · rfl

theorem Model.back (N : Means (vW m) (docElem h d) h0 [] s) (L0 : Live h0) (hk : s.d.map (·.1) = d.map (·.1)) :
    Back h d h0 s where
  keys := hk
  new u a' ha := by
    obtain ⟨a, hx⟩ := Option.isSome_iff_exists.1 ((M.lookup_iff N (u := u)).1 (by rw [ha]; rfl))
    obtain ⟨c, hc, -⟩ := M.cls u a (lookup_mem hx)
    obtain ⟨a'', h1, h2, -⟩ := N.new u c (by rw [M.classOf, hx]; exact hc)
    rw [ha] at h1
    cases h1
    exact h2
  inj := N.inj
  cls u a a' hu ha := by
    obtain ⟨c, hc, -⟩ := M.cls u a (lookup_mem hu)
    rw [N.cls u a' ha, M.X_cls h0 (lookup_mem hu) hc, hc]
  uuid u a' ha := by
    obtain ⟨a, hx⟩ := Option.isSome_iff_exists.1 ((M.lookup_iff N (u := u)).1 (by rw [ha]; rfl))
    have hu := lookup_mem hx
    obtain ⟨c, hc, -, R⟩ := M.cls u a hu
    have hf : c.findRef uuidN = none := by
      cases hf : c.findRef uuidN with
      | none => rfl
      | some rd =>
        obtain ⟨e, he, hr, hn⟩ := findRef_mem hf
        exact absurd hn (R.ident.free e he rd hr).1
    have hval := N.value u a' c uuidN (.str u) ha (M.X_cls h0 hu hc) (fun _ => by decide)
      (by rw [M.X_val h0 hu hc]; unfold fresh; rw [hf]; rfl)
    rw [M.about_uuid hu hc] at hval
    exact hval
  attrs u a a' c hu ha hc e he p hp := by
    have hu := lookup_mem hu
    have R := M.round hu hc
    obtain ⟨h1, h2, h3, h4⟩ := R.attrs e he p hp
    by_cases hn : p.1 ∈ e.enums.map (·.1)
    · obtain ⟨v, hv, -⟩ := fresh_enum R he hp hn u
      have hval := N.value u a' c p.1 v ha (M.X_cls h0 hu hc) (fun _ => h2) (by rw [M.X_val h0 hu hc, hv])
      obtain ⟨x, r, h5, h6, h7, h8⟩ := M.enum hu hc he hp hn
      rw [M.about_slot hu hc he hp (slot_enum he hp hn) rfl] at hval
      simp only [Slot.items, h6, List.map_cons, List.map_nil, stmtOf, List.foldl_cons, List.foldl_nil] at hval
      rw [apply_enum h7 h8] at hval
      exact ⟨_, _, h5, hval, .inl rfl⟩
    · have hval := N.value u a' c p.1 p.2.toVal ha (M.X_cls h0 hu hc) (fun _ => h2)
        (by rw [M.X_val h0 hu hc, fresh_plain R he hp hn])
      rw [M.about_slot hu hc he hp (slot_plain he hp hn) rfl] at hval
      obtain ⟨l, h5, h6, ⟨h7, h8⟩ | ⟨t, w, h7, h8, h9⟩⟩ := M.plain hu hc he hp hn
      · simp only [Slot.items, h7, List.map_nil, List.foldl_nil] at hval
        exact ⟨_, _, h5, hval, h8⟩
      · simp only [Slot.items, h7, List.map_cons, List.map_nil, stmtOf, List.foldl_cons, List.foldl_nil] at hval
        rw [apply_lit] at hval
        rw [show ((some t).bind textOf) = textOf t from rfl, h8] at hval
        exact ⟨_, _, h5, hval, h9⟩
  none u a a' c hu ha hc e he r hr hm hv := by
    have hu' := lookup_mem hu
    have R := M.round hu' hc
    obtain ⟨rd, hf, h2, -, -⟩ := R.ref (List.dropLast_subset c he) hr hm
    by_cases hal : rd.kind = .alias
    · obtain ⟨e1, he1, hr1, hn1⟩ := findRef_mem hf
      obtain ⟨h5, h6⟩ := R.wf.alias e1 he1 rd hr1 hal
      obtain ⟨rd', hf', hk'⟩ := Option.map_eq_some_iff.1 h5
      obtain ⟨e2, he2, hr2, hn2⟩ := findRef_mem hf'
      have hc' : s.heap.cls a' = some c := by rw [N.cls u a' ha, M.X_cls h0 hu' hc]
      rw [attr_alias hc' hf hal hf' hk']
      rw [attr_alias hc hf hal hf' hk'] at hv
      obtain ⟨v, hv1, hv2⟩ := Option.map_eq_some_iff.1 hv
      have hm' : rd'.kind.isMany = false := by rw [hk']; rfl
      obtain ⟨b1, b2, b3⟩ := M.ref_back N L0 hu' ha hc (R.refs e2 he2 rd' hr2) hr2 hm' (hn2 ▸ hf')
        (by rw [hk']; simp)
      rw [hn2] at b1 b2 b3
      rcases M.refs u a c hu' hc e2 (R.refs e2 he2 rd' hr2) rd' hr2 hm' with h7 | ⟨b, w, h7, h8, -, h9⟩
      · rw [hn2] at h7
        rw [b1 h7]
        rfl
      · rw [hn2] at h7
        rw [h7] at hv1
        cases hv1
        by_cases hx : ∃ w, d.lookup w = some b
        · obtain ⟨w', hw'⟩ := hx
          obtain ⟨b', hb'⟩ := Option.isSome_iff_exists.1 ((M.lookup_iff N (u := w')).2 (by rw [hw']; rfl))
          rw [b2 w' b b' h7 hw' hb']
          obtain ⟨cb, hcb, -⟩ := M.cls w' b (lookup_mem hw')
          have : s.heap.cls b' = h.cls b := by
            rw [N.cls w' b' hb', M.X_cls h0 (lookup_mem hw') hcb, hcb]
          dsimp only [Option.map_some] at hv2 ⊢
          rw [this]
          split at hv2
          · cases hv2
          · rename_i hne
            rw [if_neg hne]
        · rw [b3 b h7 fun w hw => hx ⟨w, hw⟩]
          rfl
    · exact (M.ref_back N L0 hu' ha hc he hr hm hf hal).1 hv
  one u a a' c hu ha hc e he r hr hm w b b' hv hw hb' := by
    have hu' := lookup_mem hu
    have R := M.round hu' hc
    obtain ⟨rd, hf, -⟩ := R.ref (List.dropLast_subset c he) hr hm
    by_cases hal : rd.kind = .alias
    · obtain ⟨e2, he2, rd', hr2, hn2, hf', hk'⟩ := R.behind hf hal
      have hc' : s.heap.cls a' = some c := by rw [N.cls u a' ha, M.X_cls h0 hu' hc]
      obtain ⟨hv1, hv2⟩ := alias_obj hc hf hal hf' hk' hv
      have hm' : rd'.kind.isMany = false := by rw [hk']; rfl
      have := (M.ref_back N L0 hu' ha hc he2 hr2 hm' (hn2 ▸ hf') (by rw [hk']; simp)).2.1 w b b' (hn2 ▸ hv1) hw hb'
      rw [hn2] at this
      obtain ⟨cb, hcb, -⟩ := M.cls w b (lookup_mem hw)
      have hcls : s.heap.cls b' = h.cls b := by rw [N.cls w b' hb', M.X_cls h0 (lookup_mem hw) hcb, hcb]
      rw [attr_alias hc' hf hal hf' hk', this]
      simp only [Option.map_some, hcls, hv2, if_true]
    · exact (M.ref_back N L0 hu' ha hc he hr hm hf hal).2.1 w b b' hv hw hb'
  left u a a' c hu ha hc e he r hr hm b hv hw := by
    have hu' := lookup_mem hu
    have R := M.round hu' hc
    obtain ⟨rd, hf, -⟩ := R.ref (List.dropLast_subset c he) hr hm
    by_cases hal : rd.kind = .alias
    · obtain ⟨e2, he2, rd', hr2, hn2, hf', hk'⟩ := R.behind hf hal
      have hc' : s.heap.cls a' = some c := by rw [N.cls u a' ha, M.X_cls h0 hu' hc]
      obtain ⟨hv1, hv2⟩ := alias_obj hc hf hal hf' hk' hv
      have hm' : rd'.kind.isMany = false := by rw [hk']; rfl
      have := (M.ref_back N L0 hu' ha hc he2 hr2 hm' (hn2 ▸ hf') (by rw [hk']; simp)).2.2 b (hn2 ▸ hv1) hw
      rw [hn2] at this
      rw [attr_alias hc' hf hal hf' hk', this]
      rfl
    · exact (M.ref_back N L0 hu' ha hc he hr hm hf hal).2.2 b hv hw
  many u a a' n i hu ha he b' := by
    have hu' := lookup_mem hu
    have hE' : ends s.heap a' n = some (.many2one, i) := by rw [means_end N ha, M.endOf h0 hu', he]
    constructor
    · intro hb
      obtain ⟨w, b, hw, hb'⟩ := M.closed N L0 ha (.inr hb)
      refine ⟨w, b, mem_lookup M.keys hw, hb', ?_⟩
      rcases (M.links N hu' ha hw hb' he (by simp)).1 (.inr hb) with hl | hl
      · rw [view_one_many he rfl] at hl; cases hl
      · exact hl
    · rintro ⟨w, b, hw, hb', hb⟩
      rcases (M.links N hu' ha (lookup_mem hw) hb' he (by simp)).2 (.inr hb) with hl | hl
      · rw [view_one_many hE' rfl] at hl; cases hl
      · exact hl
  nodup u a' n ha := by
    cases hE : ends s.heap a' n with
    | none => rw [view_many_none hE]; exact .nil
    | some q =>
      obtain ⟨k, i⟩ := q
      by_cases hk : k.isMany = true
      · rcases regular_many (ends_regular hE) hk with rfl | rfl
        · exact N.live.cons.nodup a' n i hE
        · obtain ⟨a, hu⟩ := Option.isSome_iff_exists.1 ((M.lookup_iff N (u := u)).1 (by rw [ha]; rfl))
          rw [M.m2m_back N L0 hu ha (by rw [← M.endOf h0 (lookup_mem hu), ← means_end N ha]; exact hE)]
          exact .nil
      · rw [view_many_one hE (by simpa using hk)]; exact .nil
  m2m u a a' n i hu ha he := M.m2m_back N L0 hu ha he
  live := N.live

/-! ### Keys -/

theorem Model.objs (f : Nat) : (((vW m).cfg f).objs (docElem h d).inst).filter (fun p => (m.lookup p.1).isSome) =
    d.map fun p => (Cls.name ((h.cls p.2).getD []), p.1) := by
  rw [objs_eq]
  by_cases h0 : d = []
  · subst h0
    show ([docElem h []].filterMap _).filter _ = []
    rw [List.filterMap_cons, List.filterMap_nil, root_name]
    rfl
  · rw [inst_doc h d h0]
    clear h0
    have key : ∀ d' : Dict, (∀ p ∈ d', p ∈ d) →
        ((d'.flatMap fun p => (items h p.2 ((h.cls p.2).getD [])).map PItem.elem ++
          [objElem h p.2 ((h.cls p.2).getD [])]).filterMap fun e => ((vW m).name? e.tag).bind fun n =>
            ((vW m).id? e).map fun u => (n, u)).filter (fun p => (m.lookup p.1).isSome) =
        d'.map fun p => (Cls.name ((h.cls p.2).getD []), p.1) := by
      intro d'
      induction d' with
      | nil => intro _; rfl
      | cons p d' ih =>
        intro hh
        rw [List.flatMap_cons, List.filterMap_append, List.filter_append, ih fun q hq => hh q (.tail _ hq),
          List.filterMap_append, List.filter_append, List.map_cons]
        obtain ⟨c, hc, hl, -⟩ := M.cls p.1 p.2 (hh p (.head _))
        have h1 : ((items h p.2 ((h.cls p.2).getD [])).map PItem.elem).filterMap (fun e => ((vW m).name? e.tag).bind fun n =>
            ((vW m).id? e).map fun u => (n, u)) = [] := by
          rw [List.filterMap_eq_nil_iff]
          intro e he
          obtain ⟨i, -, rfl⟩ := List.mem_map.1 he
          rw [id_item]
          cases (vW m).name? i.elem.tag <;> rfl
        have h2 : [objElem h p.2 ((h.cls p.2).getD [])].filterMap (fun e => ((vW m).name? e.tag).bind fun n =>
            ((vW m).id? e).map fun u => (n, u)) = [(Cls.name ((h.cls p.2).getD []), p.1)] := by
          rw [List.filterMap_cons, List.filterMap_nil, id_obj, M.uuid (u := p.1) (hh p (.head _))]
          have ht : (objElem h p.2 ((h.cls p.2).getD [])).tag = cimName (Cls.name ((h.cls p.2).getD [])) := rfl
          rw [ht, name_cim]
          rfl
        rw [h1, h2, hc]
        simp [hl]
    exact key d fun _ hp => hp

omit M in
theorem fold_addKey : ∀ (us ks : List Str), (ks ++ us).Nodup → us.foldl addKey ks = ks ++ us
  | [], ks, _ => by simp
  | u :: us, ks, hn => by
    rw [List.foldl_cons]
    have hu : u ∉ ks := fun hh => by
      rw [List.nodup_append] at hn
      exact hn.2.2 u hh u (.head _) rfl
    have : addKey ks u = ks ++ [u] := if_neg hu
    rw [this, fold_addKey us (ks ++ [u]) (by simpa using hn)]
    simp

/-! ### Text -/

omit M in
theorem lit_text (l : Lit) {t : Str} (ht : strOf l.toVal = some t) (hs : ∀ s, l = .str s → TextOk s) : TextOk t := by
  cases l with
  | none => cases ht; decide
  | bool b => cases b <;> cases ht <;> decide
  | int i =>
    cases ht
    intro c hc
    have : c = '-' ∨ ∃ d, d < 10 ∧ c = Str.digit d := by
      unfold Str.intRepr at hc
      cases i with
      | ofNat n => exact .inr (Str.natRepr_digits n c hc)
      | negSucc n =>
        rcases List.mem_cons.1 hc with h | h
        · exact .inl h
        · exact .inr (Str.natRepr_digits _ c h)
    rcases this with rfl | ⟨d, hd, rfl⟩
    · decide
    · have : ∀ d, d < 10 → isChar (Str.digit d) = true ∧ Str.digit d ≠ '\r' := by decide
      exact this d hd
  | flt f =>
    cases ht
    intro c hc
    rcases (Flt.repr_chars f).2 c hc with h | rfl | rfl | rfl | rfl
    · have h1 := Flt.reprChar_not_space h
      refine ⟨?_, by rintro rfl; revert h1; decide⟩
      unfold Flt.reprChar at h
      simp only [Bool.or_eq_true, decide_eq_true_eq] at h
      rcases h with (((h | rfl) | rfl) | rfl) | rfl
      · have := Flt.digitVal_some h
        unfold isChar
        simp only [Bool.or_eq_true, Bool.and_eq_true, decide_eq_true_eq, beq_iff_eq]
        omega
      all_goals decide
    all_goals decide
  | str s => obtain rfl : s = t := Option.some.inj ht; exact hs s rfl

theorem Model.textable {u a c} (hu : (u, a) ∈ d) (hc : h.cls a = some c) : Textable h a c where
  uuid := ⟨u, M.ids u a hu⟩
  attrs e he p hp := by
    by_cases hn : p.1 ∈ e.enums.map (·.1)
    · obtain ⟨s, h1, h2, -⟩ := M.enums u a c hu hc e he p hp hn
      exact ⟨.str s, s, h1, rfl, fun c hc => ⟨(h2 c hc).1, (h2 c hc).2.1⟩, fun _ => h2⟩
    · obtain ⟨l, h1, -, h2⟩ := M.attrs u a c hu hc e he p hp hn
      obtain ⟨t, ht⟩ := strOf_lit l
      exact ⟨l.toVal, t, h1, ht, lit_text l ht fun s hs => h2 s hs, fun hh => absurd hh hn⟩
  refs e he r hr hm := by
    rcases M.refs u a c hu hc e he r hr hm with h1 | ⟨b, w, h1, h2, h3, -⟩
    · exact .inl h1
    · exact .inr ⟨b, w, h1, h2, h3⟩

/-- Writing and reading back, for any package map and any namespaces arguments that amount to it. -/
theorem Model.round_trip {e : Codec} (he : e.Total) (hn : ∀ c ∈ e.name, isChar c = true ∧ c ≠ '?' ∧ c ≠ '\r')
    {env : Env} (hf : 4 ≤ env.fuel) {pm uri} (hv : voc env (docElem h d) pm uri = some (vW m)) (L0 : Live h0) :
    ∃ w s, cimwrite d ⟨h, W.new e⟩ = .ok ⟨⟩ ⟨h, w⟩ ∧ read env w.out pm uri none h0 = .ok ⟨⟩ s ∧ Back h d h0 s := by
  obtain ⟨w, h1, h2⟩ := write_doc he hn (h := h) (d := d) fun p hp => by
    obtain ⟨c, hc, -, R⟩ := M.cls p.1 p.2 hp
    refine ⟨c, (M.textable hp hc).ok hc ?_ R.names⟩
    obtain ⟨ds, x, hx, -⟩ := R.ident.split
    rw [hx]; simp
  have S : Sensible env w.out (docElem h d) pm uri none h0 (vW m) :=
    ⟨h2, hv, by simp [vW], hf, M.instantiable, L0, sdOk_nil h0, flat_doc m h d, M.fits h0⟩
  obtain ⟨s, hr, N⟩ := S.means
  refine ⟨w, s, h1, hr, M.back N L0 ?_⟩
  obtain ⟨v, hv', C⟩ := call_of_ok h2 (s0 := { heap := h0, d := [] }) hr
  rw [hv] at hv'
  cases hv'
  obtain ⟨s2, s3, P, -, -, hd, -⟩ := call_pass1 C
  rw [hd, P.keys]
  have ho := M.objs env.fuel
  rw [show (vW m).map = m from rfl, ho, List.map_map]
  have : (List.map ((fun x => x.2) ∘ fun p : Str × Addr => (Cls.name ((h.cls p.2).getD []), p.1)) d) = d.map (·.1) := rfl
  rw [this]
  exact (fold_addKey _ [] (by simpa using M.keys)).trans (by simp)

omit M in
/-- The namespaces of a written document: CIM15. -/
theorem voc_written (env : Env) (h : Heap) (d : Dict) : voc env (docElem h d) none none = some (vW env.cim15) := by
  have hl : ∀ d' : Dict, leadAll (d'.map fun p => objElem h p.2 ((h.cls p.2).getD [])) = [] := by
    intro d'
    cases d' with
    | nil => rfl
    | cons p d' =>
      rw [List.map_cons, leadAll]
      unfold objElem
      rw [lead, List.nil_append]
      cases items h p.2 ((h.cls p.2).getD []) with
      | nil => rfl
      | cons i L => rfl
  have : lead (docElem h d) = [(c!"cim", nsCIM), (c!"rdf", nsRDF)] := by
    unfold docElem
    rw [lead, hl, List.append_nil]
  unfold voc
  rw [this]
  have h1 : bound [(c!"cim", nsCIM), (c!"rdf", nsRDF)] c!"rdf" = some nsRDF := by decide
  have h2 : bound [(c!"cim", nsCIM), (c!"rdf", nsRDF)] c!"cim" = some nsCIM := by decide
  have h3 : Str.stripHash nsCIM = nsURI15 := by decide
  have h4 : nsURI15 ≠ nsURI14 := by decide
  simp only [h1, h2, h3, if_neg h4, Option.getD_some]
  rfl

end

end Props
end Verif
