import Verif.Props.ReadMany
import Verif.Props.RoundLog
/-
C87: a model written in several files and read file by file.
-/
namespace Verif
namespace Props
open Cim Py Hp Spec Xml Gen

section
variable {m : PkgMap} {h : Heap} {d : Dict} (M : Model m h d) {h0 : Heap} {s s' : RState} {ρ : Addr → Addr}
include M

/-! ### From one result to the other -/

section
variable (N : Means (vW m) (docElem h d) h0 [] s) (L0 : Live h0) (W : Same ((vW m).ctx (docElem h d) h0 []) s s')
  (R : SameRefs ρ h0 s s') (T : Tidy h0 [] s')
include N L0 W R T

omit M N L0 W T in
theorem SameRefs.back {u a'} (ha : s'.d.lookup u = some a') : ∃ a, s.d.lookup u = some a ∧ a' = ρ a := by
  rw [R.ids] at ha
  obtain ⟨a, h1, h2⟩ := Option.map_eq_some_iff.1 ha
  exact ⟨a, h1, h2.symm⟩

/-- The object a value is replaced by. -/
def moveVal (ρ : Addr → Addr) : Val → Val
  | .obj b => .obj (ρ b)
  | v => v

omit L0 in
/-- To-one references except aliases. -/
theorem Model.ref_moved {u a a' c} (hu : (u, a) ∈ d) (ha : s.d.lookup u = some a') (hc : h.cls a = some c)
    {e} (he : e ∈ c.dropLast) {r : RefDef} (hr : r ∈ e.refs) (hm : r.kind.isMany = false) {rd}
    (hf : c.findRef r.name = some rd) (hal : rd.kind ≠ .alias) :
    attr s'.heap (ρ a') r.name = (attr s.heap a' r.name).map (moveVal ρ) := by
  have Rc := M.round hu hc
  obtain ⟨rd', h1, h2, h3, h4⟩ := Rc.ref (List.dropLast_subset c he) hr hm
  rw [hf] at h1
  cases h1
  have hc1 : s.heap.cls a' = some c := by rw [N.cls u a' ha, M.X_cls h0 hu hc]
  have ha2 : s'.d.lookup u = some (ρ a') := by rw [R.ids, ha]; rfl
  have hc2 : s'.heap.cls (ρ a') = some c := by rw [W.cls u a' _ ha ha2, hc1]
  rcases h4 hal with hreg | hway
  · have hE := ends_of hc1 hf hreg
    have hE' := ends_of hc2 hf hreg
    have key := R.one u a' r.name ha
    rcases one_attr N.live hE h2 with h5 | ⟨b, h5⟩
    · rw [h5]
      rcases one_attr T.live hE' h2 with h6 | ⟨b, h6⟩
      · exact h6
      · rw [(one_of hE' h2).2 h6] at key
        cases hx : (view s.heap).one a' r.name with
        | none => rw [hx] at key; cases key
        | some x => rw [(one_of hE h2).1 hx] at h5; cases h5
    · rw [(one_of hE h2).2 h5] at key
      rw [h5, (one_of hE' h2).1 key]
      rfl
  · have hX : ((vW m).ctx (docElem h d) h0 []).val u r.name = some .none := by rw [M.X_val h0 hu hc, fresh_way hf hway]
    obtain ⟨w, w', h5, h6, h7⟩ := W.value u a' (ρ a') c r.name ha ha2 (M.X_cls h0 hu hc)
      (fun hh => by rw [hf] at hh; cases hh) (by rw [hX]; rfl)
    rw [h5, h6]
    rcases h7 with ⟨rfl, ⟨l, rfl⟩ | h7⟩ | ⟨u', b, b', rfl, rfl, h8, h9⟩
    · cases l <;> rfl
    · rw [hX] at h7; cases h7; rfl
    · rw [R.ids, h8] at h9
      cases h9
      rfl

/-- All to-one references. -/
theorem Model.one_moved {u a a' c} (hu : (u, a) ∈ d) (ha : s.d.lookup u = some a') (hc : h.cls a = some c)
    {e} (he : e ∈ c.dropLast) {r : RefDef} (hr : r ∈ e.refs) (hm : r.kind.isMany = false) :
    attr s'.heap (ρ a') r.name = (attr s.heap a' r.name).map (moveVal ρ) := by
  have Rc := M.round hu hc
  obtain ⟨rd, hf, -⟩ := Rc.ref (List.dropLast_subset c he) hr hm
  by_cases hal : rd.kind = .alias
  · obtain ⟨e2, he2, rd', hr2, hn2, hf', hk'⟩ := Rc.behind hf hal
    have hc1 : s.heap.cls a' = some c := by rw [N.cls u a' ha, M.X_cls h0 hu hc]
    have ha2 : s'.d.lookup u = some (ρ a') := by rw [R.ids, ha]; rfl
    have hc2 : s'.heap.cls (ρ a') = some c := by rw [W.cls u a' _ ha ha2, hc1]
    have hm' : rd'.kind.isMany = false := by rw [hk']; rfl
    have key := M.ref_moved N W R T hu ha hc he2 hr2 hm' (hn2 ▸ hf') (by rw [hk']; simp)
    rw [hn2] at key
    rw [attr_alias hc1 hf hal hf' hk', attr_alias hc2 hf hal hf' hk', key]
    have hE := ends_of hc1 hf' (by rw [hk']; rfl)
    cases hx : attr s.heap a' rd.inv with
    | none => rfl
    | some v =>
      cases v with
      | obj b =>
        obtain ⟨w, x, hw, hb⟩ := M.closed N L0 ha (.inl ((one_of hE hm').2 hx))
        have hb2 : s'.d.lookup w = some (ρ b) := by rw [R.ids, hb]; rfl
        simp only [Option.map_some, moveVal, W.cls w b _ hb hb2]
        split <;> rfl
      | _ => rfl
  · exact M.ref_moved N W R T hu ha hc he hr hm hf hal

theorem Model.move (B : Back h d h0 s) (hk : s'.d.map (·.1) = d.map (·.1)) : Back h d h0 s' where
  keys := hk
  new u a' ha := by
    rcases T.new u a' ha with h1 | h1
    · cases h1
    · exact h1
  inj := T.inj
  cls u a a' hu ha := by
    obtain ⟨x, hx, rfl⟩ := R.back ha
    rw [W.cls u x _ hx ha, B.cls u a x hu hx]
  uuid u a' ha := by
    obtain ⟨x, hx, rfl⟩ := R.back ha
    obtain ⟨a, hy⟩ := Option.isSome_iff_exists.1 ((M.lookup_iff N (u := u)).1 (by rw [hx]; rfl))
    have hu := lookup_mem hy
    obtain ⟨c, hc, -, Rc⟩ := M.cls u a hu
    have hf : c.findRef uuidN = none := by
      cases hf : c.findRef uuidN with
      | none => rfl
      | some rd =>
        obtain ⟨e, he, hr, hn⟩ := findRef_mem hf
        exact absurd hn (Rc.ident.free e he rd hr).1
    obtain ⟨w, w', h5, h6, h7⟩ := W.value u x (ρ x) c uuidN hx ha (M.X_cls h0 hu hc) (fun _ => by decide)
      (by rw [M.X_val h0 hu hc]; unfold fresh; rw [hf]; rfl)
    have := B.uuid u x hx
    have h5 : attr s.heap x c!"UUID" = some w := h5
    rw [h5] at this
    cases this
    rcases h7 with ⟨rfl, -⟩ | ⟨_, _, _, h8, -⟩
    · exact h6
    · cases h8
  attrs u a a' c hu ha hc e he p hp := by
    obtain ⟨x, hx, rfl⟩ := R.back ha
    obtain ⟨v, v', h1, h2, h3⟩ := B.attrs u a x c hu hx hc e he p hp
    refine ⟨v, v', h1, ?_, h3⟩
    have hu := lookup_mem hu
    have Rc := M.round hu hc
    have hX : (((vW m).ctx (docElem h d) h0 []).val u p.1).isSome := by
      rw [M.X_val h0 hu hc]
      by_cases hn : p.1 ∈ e.enums.map (·.1)
      · obtain ⟨v, hv, -⟩ := fresh_enum Rc he hp hn u
        rw [hv]; rfl
      · rw [fresh_plain Rc he hp hn]; rfl
    obtain ⟨w, w', h5, h6, h7⟩ := W.value u x (ρ x) c p.1 hx ha (M.X_cls h0 hu hc) (fun _ => (Rc.attrs e he p hp).2.1) hX
    rw [h2] at h5
    cases h5
    rcases h7 with ⟨rfl, -⟩ | ⟨_, b, _, rfl, -⟩
    · exact h6
    · exfalso
      have : ∃ l : Lit, v = l.toVal := by
        by_cases hn : p.1 ∈ e.enums.map (·.1)
        · obtain ⟨y, h8, -⟩ := M.enums u a c hu hc e he p hp hn
          rw [h1] at h8
          cases h8
          exact ⟨.str y, rfl⟩
        · obtain ⟨l, h8, -⟩ := M.attrs u a c hu hc e he p hp hn
          rw [h1] at h8
          cases h8
          exact ⟨l, rfl⟩
      obtain ⟨l, rfl⟩ := this
      rcases h3 with h3 | ⟨f, g, -, h3, -⟩
      · cases l <;> cases h3
      · cases h3
  none u a a' c hu ha hc e he r hr hm hv := by
    obtain ⟨x, hx, rfl⟩ := R.back ha
    rw [M.one_moved N L0 W R T (lookup_mem hu) hx hc he hr hm, B.none u a x c hu hx hc e he r hr hm hv]
    rfl
  one u a a' c hu ha hc e he r hr hm w b b' hv hw hb := by
    obtain ⟨x, hx, rfl⟩ := R.back ha
    obtain ⟨y, hy, rfl⟩ := R.back hb
    rw [M.one_moved N L0 W R T (lookup_mem hu) hx hc he hr hm, B.one u a x c hu hx hc e he r hr hm w b y hv hw hy]
    rfl
  left u a a' c hu ha hc e he r hr hm b hv hw := by
    obtain ⟨x, hx, rfl⟩ := R.back ha
    rw [M.one_moved N L0 W R T (lookup_mem hu) hx hc he hr hm, B.left u a x c hu hx hc e he r hr hm b hv hw]
    rfl
  many u a a' n i hu ha he b' := by
    obtain ⟨x, hx, rfl⟩ := R.back ha
    rw [R.many u x n hx, List.mem_map]
    constructor
    · rintro ⟨b, hb, rfl⟩
      obtain ⟨w, y, h1, h2, h3⟩ := (B.many u a x n i hu hx he b).1 hb
      exact ⟨w, y, h1, by rw [R.ids, h2]; rfl, h3⟩
    · rintro ⟨w, y, h1, h2, h3⟩
      obtain ⟨b, hb, rfl⟩ := R.back h2
      exact ⟨b, (B.many u a x n i hu hx he b).2 ⟨w, y, h1, hb, h3⟩, rfl⟩
  nodup u a' n ha := by
    obtain ⟨x, hx, rfl⟩ := R.back ha
    rw [R.many u x n hx]
    have hin : ∀ b ∈ (view s.heap).many x n, ∃ w, s.d.lookup w = some b := fun b hb => by
      obtain ⟨w, -, -, hw⟩ := M.closed N L0 hx (.inr hb)
      exact ⟨w, hw⟩
    have := B.nodup u x n hx
    unfold List.Nodup at this ⊢
    rw [List.pairwise_map]
    refine this.imp_of_mem fun {b c} hb hc hne hh => hne ?_
    obtain ⟨w, hw⟩ := hin b hb
    obtain ⟨z, hz⟩ := hin c hc
    have hw' : s'.d.lookup w = some (ρ b) := by rw [R.ids, hw]; rfl
    have hz' : s'.d.lookup z = some (ρ b) := by rw [R.ids, hz, hh]; rfl
    have := T.inj w z _ hw' hz'
    subst this
    rw [hw] at hz
    exact Option.some.inj hz
  m2m u a a' n i hu ha he := by
    obtain ⟨x, hx, rfl⟩ := R.back ha
    rw [R.many u x n hx, B.m2m u a x n i hu hx he]
    rfl
  live := T.live

end

/-! ### Keys -/

theorem Model.keys_after {src : Str} (D : IsDoc src (docElem h d)) {env : Env} {pm uri}
    (hv : voc env (docElem h d) pm uri = some (vW m)) {sd} (hr : read env src pm uri sd h0 = .ok ⟨⟩ s) :
    s.d.map (·.1) = (d.map (·.1)).foldl addKey ((sd.getD []).map (·.1)) := by
  obtain ⟨v, hv', C⟩ := call_of_ok D (s0 := { heap := h0, d := sd.getD [] }) hr
  rw [hv] at hv'
  cases hv'
  obtain ⟨s2, s3, P, -, -, hd, -⟩ := call_pass1 C
  rw [hd, P.keys]
  have ho := M.objs env.fuel
  rw [show (vW m).map = m from rfl, ho, List.map_map]
  rfl

/-- The identifiers described. -/
theorem Model.ids_doc {u} (hu : u ∈ (vW m).ids (docElem h d)) : ∃ a, (u, a) ∈ d := by
  by_cases h0 : d = []
  · subst h0
    cases hu
  · unfold Voc.ids at hu
    rw [← inst_kids (by simpa [docElem, Elem.kids] using h0), inst_doc h d h0, List.mem_filterMap] at hu
    obtain ⟨e, he, hs⟩ := hu
    obtain ⟨p, hp, he⟩ := List.mem_flatMap.1 he
    rcases List.mem_append.1 he with he | he
    · obtain ⟨i, -, rfl⟩ := List.mem_map.1 he
      unfold Voc.subj? at hs
      rw [id_item] at hs
      split at hs <;> cases hs
    · rw [List.mem_singleton] at he
      subst he
      rw [subj_obj] at hs
      cases hs
      refine ⟨p.2, ?_⟩
      rw [M.uuid (u := p.1) hp]
      exact hp

end

theorem all_keys {m : PkgMap} {h : Heap} {env : Env} {pm uri} (hv : ∀ d, voc env (docElem h d) pm uri = some (vW m)) :
    ∀ (docs : List (Str × Dict)), (∀ p ∈ docs, Model m h p.2 ∧ IsDoc p.1 (docElem h p.2)) → ∀ {sd h0 s},
      readAll env pm uri (docs.map (·.1)) sd h0 = .ok ⟨⟩ s →
      s.d.map (·.1) = ((docs.flatMap (·.2)).map (·.1)).foldl addKey ((sd.getD []).map (·.1))
  | [], _, sd, h0, s, hr => by cases hr; rfl
  | [p], hd, sd, h0, s, hr => by
    obtain ⟨M, D⟩ := hd p (.head _)
    rw [M.keys_after D (hv _) hr]
    simp
  | p :: q :: docs, hd, sd, h0, s, hr => by
    obtain ⟨M, D⟩ := hd p (.head _)
    rw [List.map_cons, List.map_cons, readAll] at hr
    · split at hr
      · rename_i s1 h1
        have := all_keys hv (q :: docs) (fun x hx => hd x (.tail _ hx)) (sd := some s1.d) hr
        rw [this, Option.getD_some, M.keys_after D (hv _) h1, List.flatMap_cons (x := p), List.map_append, List.foldl_append]
      · cases hr
    · simp

/-- No object of a part refers to one of a later part. -/
def Backward (h : Heap) (ds : List Dict) : Prop := ds.Pairwise fun x y => ∀ p ∈ x, ∀ c, h.cls p.2 = some c →
  ∀ k ∈ c.dropLast, ∀ r ∈ k.refs, r.kind.isMany = false → ∀ q ∈ y, attr h p.2 r.name ≠ some (.obj q.2)

section
variable {m : PkgMap} {h : Heap} {ds : List Dict} (M : Model m h ds.flatten)
include M

theorem Model.piece {d} (hd : d ∈ ds) : Model m h d :=
  M.part (by
      have := M.keys
      rw [List.map_flatten] at this
      exact (List.pairwise_flatten.1 this).1 _ (List.mem_map.2 ⟨d, hd, rfl⟩))
    fun p hp => List.mem_flatten.2 ⟨d, hd, hp⟩

theorem Model.split (ne : ∀ d ∈ ds, d ≠ []) (F : Backward h ds) :
    Split (vW m) (docElem h ds.flatten) (ds.map (docElem h)) where
  kids := by
    show ds.flatten.map _ = _
    rw [List.map_flatten, List.flatMap_map]
    rfl
  ne := by
    intro x hx
    obtain ⟨d, hd, rfl⟩ := List.mem_map.1 hx
    simpa [docElem, Elem.kids] using ne d hd
  apart := by
    rw [List.pairwise_map]
    have := M.keys
    rw [List.map_flatten] at this
    have := (List.pairwise_flatten.1 this).2
    rw [List.pairwise_map] at this
    refine this.imp_of_mem fun {x y} hx hy hxy u hu hu' => ?_
    obtain ⟨a, ha⟩ := (M.piece hx).ids_doc hu
    obtain ⟨b, hb⟩ := (M.piece hy).ids_doc hu'
    exact hxy u (List.mem_map.2 ⟨_, ha, rfl⟩) u (List.mem_map.2 ⟨_, hb, rfl⟩) rfl
  back := by
    rw [List.pairwise_map]
    refine List.Pairwise.imp_of_mem (fun {x y} hx hy hxy st hst w hw hu => ?_) F
    obtain ⟨b', hb'⟩ := (M.piece hy).ids_doc hu
    obtain ⟨u, a, c, hu, hc, k, hk, r, hr, hm, b, hb, h5⟩ := (M.piece hx).targets.1 ⟨st, hst, hw⟩
    have hu' : (u, a) ∈ ds.flatten := List.mem_flatten.2 ⟨x, hx, hu⟩
    rcases M.refs u a c hu' hc k hk r hr hm with h6 | ⟨b2, w2, h6, h7, -, h8⟩
    · rw [hb] at h6; cases h6
    · rw [hb] at h6
      cases h6
      rw [h5] at h7
      cases h7
      have := h8 b' (List.mem_flatten.2 ⟨y, hy, hb'⟩)
      subst this
      exact hxy (u, a) hu c hc k hk r hr hm _ hb' hb

end

theorem Model.text {m h d} (M : Model m h d) {e : Codec} (he : e.Total) (hn : EncName e.name) :
    ∃ w, cimwrite d ⟨h, W.new e⟩ = .ok ⟨⟩ ⟨h, w⟩ ∧ IsDoc w.out (docElem h d) :=
  write_doc he hn fun p hp => by
    obtain ⟨c, hc, -, R⟩ := M.cls p.1 p.2 hp
    refine ⟨c, (M.textable hp hc).ok hc ?_ R.names⟩
    obtain ⟨ds, x, hx, -⟩ := R.ident.split
    rw [hx]; simp

theorem texts_of {e : Codec} {h : Heap} : ∀ (ds : List Dict),
    (∀ d ∈ ds, ∃ w, cimwrite d ⟨h, W.new e⟩ = .ok ⟨⟩ ⟨h, w⟩ ∧ IsDoc w.out (docElem h d)) →
    ∃ ps : List (W × Dict), ps.map (·.2) = ds ∧
      ∀ p ∈ ps, cimwrite p.2 ⟨h, W.new e⟩ = .ok ⟨⟩ ⟨h, p.1⟩ ∧ IsDoc p.1.out (docElem h p.2)
  | [], _ => ⟨[], rfl, by simp⟩
  | d :: ds, hd => by
    obtain ⟨w, h1, h2⟩ := hd d (.head _)
    obtain ⟨ps, h3, h4⟩ := texts_of ds fun x hx => hd x (.tail _ hx)
    refine ⟨(w, d) :: ps, by simp [h3], fun p hp => ?_⟩
    rcases List.mem_cons.1 hp with rfl | hp
    · exact ⟨h1, h2⟩
    · exact h4 p hp

/-- C87: a model is divided into parts that are written one by one, each into a text of its own. If no part refers
to a later one, then reading the texts one after the other gives back the whole model. -/
theorem C87_pieces {e : Codec} (he : e.Total) (hn : EncName e.name) {env : Env} (hf : 4 ≤ env.fuel)
    (hm : env.cim15 = pmapOf CIM15.pkg) {h : Heap} {ds : List Dict} (M : Model15 h ds.flatten) (hd : ds ≠ [])
    (ne : ∀ d ∈ ds, d ≠ []) (F : Backward h ds) {h0 : Heap} (L0 : Live h0) :
    ∃ ps : List (W × Dict), ps.map (·.2) = ds ∧ (∀ p ∈ ps, cimwrite p.2 ⟨h, W.new e⟩ = .ok ⟨⟩ ⟨h, p.1⟩) ∧
      ∃ s, readAll env none none (ps.map (·.1.out)) none h0 = .ok ⟨⟩ s ∧ Back h ds.flatten h0 s := by
  have hv : ∀ d, voc env (docElem h d) none none = some (vW (pmapOf CIM15.pkg)) := fun d => by rw [voc_written, hm]
  have M' := Model15.model M
  generalize pmapOf CIM15.pkg = m at hv M'
  obtain ⟨ps, rfl, hps⟩ := texts_of ds fun d hd => (M'.piece hd).text he hn
  refine ⟨ps, rfl, fun p hp => (hps p hp).1, ?_⟩
  have hpm : ∀ p ∈ ps, Model m h p.2 := fun p hp => M'.piece (List.mem_map.2 ⟨p, hp, rfl⟩)
  obtain ⟨w0, -, D0⟩ := M'.text he hn
  have S : Sensible env w0.out (docElem h (ps.map (·.2)).flatten) none none none h0 (vW m) :=
    ⟨D0, hv _, by simp [vW], hf, M'.instantiable, L0, sdOk_nil h0, flat_doc m h _, M'.fits h0⟩
  obtain ⟨s, hr, N⟩ := S.means
  have hk := M'.keys_after D0 (hv _) hr
  rw [fold_addKey _ _ (by simpa using M'.keys)] at hk
  have B := M'.back N L0 (by simpa using hk)
  rcases ps with _ | ⟨p, _ | ⟨p2, ps⟩⟩
  · exact absurd rfl hd
  · obtain ⟨-, D⟩ := hps p (.head _)
    have Mp := hpm p (.head _)
    have S : Sensible env p.1.out (docElem h p.2) none none none h0 (vW m) :=
      ⟨D, hv _, by simp [vW], hf, Mp.instantiable, L0, sdOk_nil h0, flat_doc m h _, Mp.fits h0⟩
    obtain ⟨s, hr, N⟩ := S.means
    have hk := Mp.keys_after D (hv _) hr
    rw [fold_addKey _ _ (by simpa using Mp.keys)] at hk
    exact ⟨s, hr, by simpa using Mp.back N L0 (by simpa using hk)⟩
  · have ⟨p1, hp1⟩ : ∃ p1, p1 = p := ⟨p, rfl⟩
    subst hp1
    have Sp := M'.split ne F
    obtain ⟨s', r', W, ⟨ρ, R⟩, T⟩ := split_reads hf (ps.map fun p => (p.1.out, docElem h p.2))
      (src1 := p1.1.out) (src2 := p2.1.out) (t1 := docElem h p1.2) (t2 := docElem h p2.2)
      (t := docElem h ((p1 :: p2 :: ps).map (·.2)).flatten) (h := h0) (sd := none) (s := s) (v := vW m)
      (fun p hp => by
        have : p ∈ (p1 :: p2 :: ps).map fun p => (p.1.out, docElem h p.2) := hp
        obtain ⟨q, hq, rfl⟩ := List.mem_map.1 this
        exact ⟨(hps q hq).2, hv _⟩)
      (by simpa [Function.comp_def] using Sp) S.apt (fun u n b e => by
        exfalso
        have : ((vW m).ctx (docElem h ((p1 :: p2 :: ps).map (·.2)).flatten) h0 []).val u n = some (.obj b) := e
        cases hl : ((p1 :: p2 :: ps).map (·.2)).flatten.lookup u with
        | none => rw [M'.ctx_val, hl] at this; cases this
        | some a =>
          obtain ⟨c, hc, -⟩ := M'.cls u a (lookup_mem hl)
          rw [M'.X_val h0 (lookup_mem hl) hc] at this
          exact fresh_not_obj this) N
    have hr' : readAll env none none ((p1 :: p2 :: ps).map (·.1.out)) none h0 = .ok ⟨⟩ s' := by
      simpa [Function.comp_def] using r'
    refine ⟨s', hr', M'.move N L0 W R T B ?_⟩
    have := all_keys hv ((p1 :: p2 :: ps).map fun p => (p.1.out, p.2)) (fun p hp => by
      obtain ⟨q, hq, rfl⟩ := List.mem_map.1 hp
      exact ⟨hpm q hq, (hps q hq).2⟩) (sd := none) (h0 := h0) (s := s') (by simpa [Function.comp_def] using hr')
    have hfl : ((p1 :: p2 :: ps).map fun p => (p.1.out, p.2)).flatMap (·.2) = ((p1 :: p2 :: ps).map (·.2)).flatten := by
      rw [List.flatMap_def, List.map_map]
      rfl
    rw [this, hfl, fold_addKey _ _ (by simpa using M'.keys)]
    rfl

/-- C88: files can be merged. If the references of the model of C87 stay inside it, then what was read from the files
is written as the same text as the whole model. -/
theorem C88_merge {e : Codec} (he : e.Total) (hn : EncName e.name) {env : Env} (hf : 4 ≤ env.fuel)
    (hm : env.cim15 = pmapOf CIM15.pkg) {h : Heap} {ds : List Dict} (M : Model15 h ds.flatten) (C : Closed h ds.flatten)
    (hd : ds ≠ []) (ne : ∀ d ∈ ds, d ≠ []) (F : Backward h ds) {h0 : Heap} (L0 : Live h0) :
    ∃ ps : List (W × Dict), ps.map (·.2) = ds ∧ (∀ p ∈ ps, cimwrite p.2 ⟨h, W.new e⟩ = .ok ⟨⟩ ⟨h, p.1⟩) ∧
      ∃ w s, cimwrite ds.flatten ⟨h, W.new e⟩ = .ok ⟨⟩ ⟨h, w⟩ ∧
        readAll env none none (ps.map (·.1.out)) none h0 = .ok ⟨⟩ s ∧
        cimwrite s.d ⟨s.heap, W.new e⟩ = .ok ⟨⟩ ⟨s.heap, w⟩ := by
  obtain ⟨ps, h1, h2, s, h3, B⟩ := C87_pieces he hn hf hm M hd ne F L0
  obtain ⟨w, h4, -⟩ := (Model15.model M).text he hn
  exact ⟨ps, h1, h2, w, s, h4, h3, B.same_text (Model15.model M) C h4⟩

end Props
end Verif
